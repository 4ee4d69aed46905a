import Verif.Proofs.Builds
import Verif.Proofs.HelloBuild
import Verif.Props.Components

/-! Helper lemmas: the steps of the construction of examples/tutorial/example1.py that do not raise. -/

namespace Trumania
namespace Builds
open Spec World Circus Cdr
open Shop (onWorld_ok)
open Hello (Weighted Lot Step)
variable {σ : Type} {env : Env σ (AnyGen σ)} {w w' : World σ (AnyGen σ)} {c c' : Circus σ (AnyGen σ)}
  {R : List (List (Val × Val × Rat))} {P : List Population} {T : List (Story σ)} {k : Int × Int}

theorem ends_persons (hsem : env.sem = AnyGen.sem env.R) {p : Hello.Params} {g : Hello.Parts (AnyGen σ)} {b : SeqGen}
    (hg : g.Usual b) {name : String} {seed start step : Int} (hnew : Circus.new env.R name seed start step = .ok c) :
    Ends (Hello.createPersons env p g) c := by
  rw [Hello.createPersons]
  refine (Ends.onWorld (ends_addGenerator _ _)).bind fun r1 c1 h1 => ?_
  obtain ⟨u1, h1', rfl⟩ := onWorld_ok h1
  obtain ⟨a1, rfl, g1⟩ := Shop.after_addGenerator (env := env) h1'
  have hgen : u1.gens[c.world.gens.length]? = some (.seq b) := by
    rw [g1, List.getElem?_append_right (le_refl _), Nat.sub_self, hg.persons]
    rfl
  exact ends_createPopulation (c := { c with world := u1 }) hsem (new_named hnew _) hgen

theorem ends_addAttribute {pop : Nat} {p : Population} {name : String} {mk : Int → AnyGen σ} {V : Cell → Prop}
    (hp : w.pops[pop]? = some p) (hl : p.ids.length = p.size) (hmk : ∀ seed, AlwaysGives env (mk seed) V) :
    Ends (Hello.addAttribute env pop name mk) w := by
  rw [Hello.addAttribute]
  refine (ends_seeded _ _).bind fun r1 w1 h1 => ?_
  obtain ⟨⟨s1, b1⟩, -, -⟩ := seeded_began h1
  exact ends_createDrawn (by rw [seeded_pops h1]; exact hp) hl b1 (hmk s1)

/-- the values of an attribute are drawn from its generator -/
theorem addAttribute_values {pop : Nat} {p : Population} {name : String} {mk : Int → AnyGen σ} {V : Cell → Prop} {u : Unit}
    (hp : P[pop]? = some p) (hl : p.ids.length = p.size) (hmk : ∀ seed, AlwaysGives env (mk seed) V)
    (hs : Lot env R P T k w) (h : Hello.addAttribute env pop name mk w = .ok u w') : ∃ a values,
      Attribute.new p.size p.ids values = .ok a ∧ (∀ i x, Holds a i x → V x) ∧
      Lot env R (P.set pop { p with attributes := p.attributes.set name a }) T k w' := by
  obtain ⟨p', a, values, hp', ha, s⟩ := Hello.addAttribute_lot hs h
  rw [hp] at hp'
  cases hp'
  refine ⟨a, values, ha, fun i x hx => ?_, s⟩
  rw [Hello.addAttribute] at h
  obtain ⟨r1, w1, h1, h2⟩ := Act.bind_eq_ok.1 h
  obtain ⟨⟨s1, b1⟩, -, -⟩ := seeded_began h1
  have s1' := Hello.lot_seeded hs h1
  obtain ⟨p2, a2, vs, hp2, hgen, ha2, e2⟩ := Snd.createDrawn_attrs h2
  rw [s1'.pops, hp] at hp2
  cases hp2
  have hlt := (List.getElem?_eq_some_iff.1 hp).1
  have e3 := s.pops.symm.trans (e2.trans (by rw [s1'.pops]))
  have e4 : some ({ p with attributes := p.attributes.set name a } : Population) =
      some { p with attributes := p.attributes.set name a2 } := by
    rw [← List.getElem?_set_self hlt, e3, List.getElem?_set_self hlt]
  have e5 : p.attributes.set name a = p.attributes.set name a2 := by
    injection e4 with e4
    injection e4
  have e6 : a = a2 := by
    have := congrArg (fun d => Dict.get? d name) e5
    simp only [Dict.get?_set, if_true] at this
    injection this
  subst e6
  have hz : p.size = 0 → p.ids = [] := fun e => List.length_eq_zero_iff.1 (hl.trans e)
  have hv := (new_holds ha2 hz).2.1 i x hx
  rcases hgen with ⟨-, rfl⟩ | ⟨w3, hgen⟩
  · cases hv.2
  · obtain ⟨cells, w4, k1, -, k3⟩ := generate_gives b1 (hmk s1) p.size
    rw [k1] at hgen
    cases hgen
    exact k3 x hv.2

theorem ends_addSite {pop rel : Nat} {gen : GenRef} {q : Rat} {a : AnyGen σ}
    {L : List (Val × Val × Rat)} {p : Population} {V : Val → Prop} (hp : P[pop]? = some p) (hsize : p.ids.length = p.size)
    (hs : Lot env R P T k w) (hL : R[rel]? = some L) (hb : Began env w gen a) (ha : AlwaysGives env a (IdIn V)) :
    Ends (Hello.addSite env pop rel gen q) w := by
  have hp' : w.pops[pop]? = some p := by rw [hs.pops]; exact hp
  rw [Hello.addSite]
  refine (ends_getPop hp').bind fun p' w1 h1 => ?_
  obtain ⟨e, rfl⟩ := getPop_eq_ok.1 h1
  rw [hp'] at e
  cases e
  obtain ⟨cells, w2, e2, hl2, hV⟩ := generate_gives hb ha p.size
  refine Ends.bind ⟨cells, w2, e2⟩ fun cells' w2' h2 => ?_
  rw [e2] at h2
  cases h2
  obtain ⟨l, hl, hll⟩ := asVals hV
  refine (Ends.ofPy hl).bind fun l' w3 h3 => ?_
  obtain ⟨h3, rfl⟩ := Act.ofPy_eq_ok.1 h3
  rw [hl] at h3
  cases h3
  exact ends_addRelations (Hello.lot_generate hs e2) hL (lengthsOk_scalar (by omega))

theorem addSite_began {pop rel : Nat} {gen r : GenRef} {q : Rat} {a : AnyGen σ} {u : Unit} (hb : Began env w r a)
    (h : Hello.addSite env pop rel gen q w = .ok u w') : Began env w' r a := by
  rw [Hello.addSite] at h
  obtain ⟨p, v1, k1, h⟩ := Act.bind_eq_ok.1 h
  obtain ⟨-, rfl⟩ := getPop_eq_ok.1 k1
  obtain ⟨cells, v2, k2, h⟩ := Act.bind_eq_ok.1 h
  obtain ⟨tos, v3, k3, h⟩ := Act.bind_eq_ok.1 h
  obtain ⟨-, rfl⟩ := Act.ofPy_eq_ok.1 k3
  exact addRelations_began h (generate_began k2 hb)

theorem ends_siteAll (hsem : env.sem = AnyGen.sem env.R) {pop rel : Nat} {gen : GenRef} {weights : List Rat}
    {all : List Val} {r : σ} (hall : all ≠ []) {L : List (Val × Val × Rat)} {p : Population} (hp : P[pop]? = some p)
    (hsize : p.ids.length = p.size) (hs : Lot env R P T k w) (hL : R[rel]? = some L)
    (hb : Began env w gen (.choice all none r)) : Ends (Act.forEach (Hello.addSite env pop rel gen) weights) w := by
  induction weights generalizing w R L with
  | nil => exact Ends.pure
  | cons q weights ih =>
    rw [forEach_cons]
    refine (ends_addSite hp hsize hs hL hb (gives_choice hsem hall)).bind fun u w1 h1 => ?_
    obtain ⟨drawn, -, -, s1⟩ := Hello.addSiteAll_lot (weights := [q]) (u := ()) hsem hp hsize hs hL hb (by
      rw [forEach_cons, Act.bind_ok h1]
      rfl)
    exact ih s1 (List.getElem?_set_self (List.getElem?_eq_some_iff.1 hL).1) (addSite_began hb h1)

theorem ends_addSites (hsem : env.sem = AnyGen.sem env.R) {q : Hello.Params} {g : Hello.Parts (AnyGen σ)} {b : SeqGen}
    (hg : g.Usual b) (hq : 0 < q.nSites) {pop : Nat} {weights : List Rat} {p : Population} (hp : P[pop]? = some p)
    (hsize : p.ids.length = p.size) (hs : Lot env R P T k w) : Ends (Hello.addSites env q g pop weights) w := by
  rw [Hello.addSites]
  refine (ends_seeded _ _).bind fun gen w1 h1 => ?_
  have s1 := Hello.lot_seeded hs h1
  obtain ⟨⟨seed, b1⟩, -, -⟩ := seeded_began h1
  obtain ⟨r, hr⟩ := hg.choice (Hello.sites q g) seed
  rw [hr] at b1
  refine (ends_createRelationship (by rw [s1.pops]; exact hp)).bind fun rel w2 h2 => ?_
  obtain ⟨p', hp', rfl, s2, -⟩ := Hello.lot_createRelationship s1 h2
  rw [hp] at hp'
  cases hp'
  refine (ends_siteAll hsem (r := r) (all := Hello.sites q g) ?_
    (p := { p with relationships := p.relationships.set "sites" R.length })
    (List.getElem?_set_self (List.getElem?_eq_some_iff.1 hp).1) hsize s2
    (L := []) (by simp) (createRelationship_began h2 b1)).bind fun _ _ _ => Ends.pure
  intro e
  have := Music.length_idsFrom g.siteIds q.nSites
  rw [← Hello.sites_eq q g, e] at this
  simp at this
  omega

/-- the network of friends is not empty, and goes from the persons to the persons -/
def Friendly (g : Hello.Parts (AnyGen σ)) (n : Nat) : Prop :=
  ∀ seed, BipartiteEdges n n (g.graph n n (5/1000) seed) ∧ g.graph n n (5/1000) seed ≠ []

theorem ends_addFriends {g : Hello.Parts (AnyGen σ)} {pop : Nat} {p : Population} (hp : P[pop]? = some p)
    (hgr : p.ids ≠ [] → Friendly g p.ids.length) (hs : Lot env R P T k w) : Ends (Hello.addFriends env g pop) w := by
  rw [Hello.addFriends]
  refine (ends_createRelationship (by rw [hs.pops]; exact hp)).bind fun rel w1 h1 => ?_
  obtain ⟨p', hp', rfl, s1, -⟩ := Hello.lot_createRelationship hs h1
  rw [hp] at hp'
  cases hp'
  refine (ends_drawSeed _).bind fun seed w2 h2 => ?_
  have s2 := Hello.lot_drawSeed s1 h2
  have hp2 : w2.pops[pop]? = some { p with relationships := p.relationships.set "friends" R.length } := by
    rw [s2.pops]
    exact List.getElem?_set_self (List.getElem?_eq_some_iff.1 hp).1
  refine (ends_getPop hp2).bind fun q w3 h3 => ?_
  obtain ⟨e, rfl⟩ := getPop_eq_ok.1 h3
  rw [hp2] at e
  cases e
  obtain ⟨pairs, hpairs⟩ : ∃ pairs, make_random_bipartite_data p.ids p.ids (5/1000)
      (g.graph p.ids.length p.ids.length (5/1000) seed) = .ok pairs := by
    by_cases h0 : p.ids = []
    · exact ⟨[], by rw [make_random_bipartite_data, if_pos (.inl (by rw [h0]; rfl))]⟩
    · obtain ⟨hb, hne⟩ := hgr h0 seed
      obtain ⟨out, h, -⟩ := C72_bipartite_total p.ids p.ids (5/1000) _ hb hne h0 h0 (by norm_num)
      exact ⟨out, h⟩
  refine (Ends.ofPy hpairs).bind fun pairs' w4 h4 => ?_
  obtain ⟨h4, rfl⟩ := Act.ofPy_eq_ok.1 h4
  exact (ends_addRelations (L := []) s2 (by simp) (lengthsOk_scalar (by simp))).bind fun _ _ _ => Ends.pure

theorem ends_story {q : Population} (hl : q.ids.length = q.size) (hs : Lot env R [q] [] k c.world) :
    Ends (Circus.createStory env (Hello.helloStory 0)) c :=
  Ends.onWorld (ends_createStory (p := q) (by rw [hs.pops]; rfl) (hs.wf q (by simp)).ids hl
    (by rw [findStory, hs.stories]; rfl) rfl (.const ⟨1, rfl⟩) (.inl ⟨0, rfl⟩))

theorem ends_popularities {pop : Nat} {p : Population} {a : Attribute} (hp : P[pop]? = some p)
    (ha : p.attributes.get? "POPULARITY" = some a) (hnum : ∀ i x, Holds a i x → ∃ q, x = .num q) (hs : Lot env R P T k w) :
    Ends (Hello.popularities pop) w := by
  rw [Hello.popularities]
  have hp' : w.pops[pop]? = some p := by rw [hs.pops]; exact hp
  refine (ends_getPop hp').bind fun q w1 h1 => ?_
  obtain ⟨e, rfl⟩ := getPop_eq_ok.1 h1
  rw [hp'] at e
  cases e
  refine (Ends.ofPy (by rw [Population.getAttribute, Population.get_eq_ok]; exact ha)).bind fun a' w2 h2 => ?_
  obtain ⟨h3, rfl⟩ := Act.ofPy_eq_ok.1 h2
  rw [Population.getAttribute, Population.get_eq_ok, ha] at h3
  cases h3
  obtain ⟨l, hl⟩ := mapM_isOk (f := fun x : Val × Cell => (do .ok (x.1, ← x.2.asNum) : Py (Val × Rat))) (l := a.table)
    fun x hx => by
      obtain ⟨q, e⟩ := hnum x.1 x.2 hx
      rw [e]
      exact ⟨_, rfl⟩
  exact Ends.ofPy hl

end Builds
end Trumania
