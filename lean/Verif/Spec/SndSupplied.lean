import Verif.Spec.SndSound
import Verif.Props.Components

/-!
# What the constructor of the SND scenario needs besides
-/

namespace Trumania
namespace Snd
open Spec
variable {σ : Type}

/-- What the parameters and the generator objects of the scenario must be for its constructor not to raise, besides what
its stories need: sequential ids, names and weights and activities that are always given, at least one agent, someone to
give the SIMs to, a distributor for the dealers, and a network of agents and dealers that has an edge. -/
structure Supplied (env : Env σ (AnyGen σ)) (p : Params) (g : Parts (AnyGen σ)) : Prop where
  distributors : ∃ b, g.distributorIds = .seq b
  dealers : ∃ b, g.dealerIds = .seq b
  agents : ∃ b, g.agentIds = .seq b
  names : ∀ seed, AlwaysGives env (g.agentNames seed) fun _ => True
  weights : AlwaysGives env g.agentWeights fun c => ∃ q, c = .num q
  sizes : ∀ seed, AlwaysGives env (g.bulkSizes seed) fun _ => True
  activity : ∀ seed, AlwaysGives env (g.activity seed) fun c => ∃ q, c = .num q
  leave : ∀ seed, AlwaysGives env (g.holidayStart seed) fun c => ∃ q, c = .num q
  back : ∀ seed, AlwaysGives env (g.holidayEnd seed) fun c => ∃ q, c = .num q
  hired : p.nAgents ≠ 0
  stocked : p.nSimsDistributor = 0 ∨ p.nDistributors ≠ 0
  bought : p.nSimsDealer = 0 ∨ p.nDealers ≠ 0
  sold : p.nDealers = 0 ∨ p.nDistributors ≠ 0
  linked : p.nDealers ≠ 0 → p.degree ≠ 0 → ∀ seed,
    BipartiteEdges p.nAgents p.nDealers (g.graph p.nAgents p.nDealers (p.degree / p.nAgents * p.nDealers) seed) ∧
    g.graph p.nAgents p.nDealers (p.degree / p.nAgents * p.nDealers) seed ≠ []

end Snd
end Trumania
