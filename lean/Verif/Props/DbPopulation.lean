import Verif.Proofs.DbPopulation

/-!
# C133: populations saved on their own, and loaded in any circus
-/

namespace Trumania
open Spec Act

namespace Db
open Population
variable {σ γ : Type} {D : DbFormat γ}

/-- what is at a path, as the dictionary tells it -/
theorem sameAt_of_get? {fs fs' : FS} (h : Tree fs) (h' : Tree fs') {q : Path} (e : Dict.get? fs' q = Dict.get? fs q) :
    SameAt fs fs' q := by
  intro n
  rw [← FS.get?_iff h.unique, ← FS.get?_iff h'.unique, e]

/-- **C133** A population that its files can carry, of a circus or of none, is saved under any namespace and any id: this
replaces what was there. All the rest of the files is kept, and nothing else appears than the folders on the way. -/
theorem C133_saved (so : SetOrder String) (fuel d : Nat) (orders : Orders) (db : Path) (ns id : String) {w : World σ γ}
    {k : Nat} {p : Population} (hk : w.pops[k]? = some p) (hp : StorablePopulation D.text orders w.rels p) (fs : FS)
    (ht : Tree fs) (hc : Creatable fs (db ++ [ns, "populations"]))
    (hd : DepthBelow fs (db ++ [ns, "populations", id]) d) (hf : d < fuel) :
    ∃ fs', savePopulation D so fuel orders db w k ns id fs = .ok () fs' ∧ Tree fs' ∧
      (∀ q, Below q (db ++ [ns, "populations", id]) → At fs' q .dir) ∧
      ∀ q, ¬ Below (db ++ [ns, "populations", id]) q → ¬ Below q (db ++ [ns, "populations", id]) → SameAt fs fs' q := by
  have e : populationsFolder db ns = db ++ [ns, "populations"] := by simp [populationsFolder, namespaceFolder]
  have e' : populationsFolder db ns ++ [id] = db ++ [ns, "populations", id] := by rw [e]; simp
  obtain ⟨rt, hrt⟩ := relTexts_exists hp
  obtain ⟨fs', h1, h2⟩ := savePopulation_spec (D := D) so orders db hk ns id hrt hp.attributeNames hp.relationshipNames fs ht
    (e ▸ hc) (e' ▸ hd) hf
  rw [e'] at h2
  refine ⟨fs', h1, h2.tree, fun q hq => ?_, fun q h3 h4 => sameAt_of_get? ht h2.tree (h2.outside q h3 h4)⟩
  by_cases hb : Below (db ++ [ns, "populations", id]) q
  · obtain ⟨r, rfl⟩ := hb
    obtain ⟨r', hr'⟩ := hq
    have hl := congrArg List.length hr'
    simp only [List.length_append] at hl
    have : r = [] := List.length_eq_zero_iff.1 (by omega)
    subst this
    exact Dict.get?_mem (h2.inside [])
  · exact Dict.get?_mem (h2.above q hb hq)

/-- **C133** Then any circus can load it, in whatever order the folders are listed: it gets one population more, with the
same members, attributes and relationships, under that id. A population that had that id is replaced; the others, the
generators, the stories and the clock are the same, and no file changes. The relationships are new ones, those of the
population and no other, and start from their seed. -/
theorem C133_loaded (hF : D.text.Lawful) (so : SetOrder String) (fuel d : Nat) (orders : Orders) (db : Path)
    (ns id : String) {w : World σ γ} {k : Nat} {p : Population} (hk : w.pops[k]? = some p)
    (hp : StorablePopulation D.text orders w.rels p) (fs : FS) (ht : Tree fs)
    (hc : Creatable fs (db ++ [ns, "populations"])) (hd : DepthBelow fs (db ++ [ns, "populations", id]) d) (hf : d < fuel)
    {u : Unit} {fs' : FS} (h : savePopulation D so fuel orders db w k ns id fs = .ok u fs')
    (so' : SetOrder String) (R : Rng σ) (orders' : Orders) (c : Circus σ γ) :
    ∃ c' p' new, loadPopulation D so' R orders' db c ns id fs' = .ok c' fs' ∧
      SamePopulation w.rels c'.world.rels p p' ∧
      c'.world = { c.world with rels := c.world.rels ++ new, pops := c.world.pops ++ [p'] } ∧
      (∀ r ∈ new, Relationship.Reachable R r ∧ r.state = R.seed r.seed) ∧
      (∀ r ∈ new, ∃ r0 ∈ w.rels, SameRelationship r0 r) ∧
      Dict.get? c'.populations id = some c.world.pops.length ∧
      (∀ other, other ≠ id → Dict.get? c'.populations other = Dict.get? c.populations other) ∧
      c'.generators = c.generators ∧ c'.name = c.name ∧ c'.masterSeed = c.masterSeed ∧ c'.start = c.start ∧
      c'.step = c.step := by
  have e : populationsFolder db ns = db ++ [ns, "populations"] := by simp [populationsFolder, namespaceFolder]
  have e' : populationsFolder db ns ++ [id] = db ++ [ns, "populations", id] := by rw [e]; simp
  obtain ⟨rt, hrt⟩ := relTexts_exists hp
  obtain ⟨fs1, h1, h2⟩ := savePopulation_spec (D := D) so orders db hk ns id hrt hp.attributeNames hp.relationshipNames fs ht
    (e ▸ hc) (e' ▸ hd) hf
  rw [h1] at h
  cases h
  obtain ⟨L, h3, h4, h5⟩ := samePopulation_attached hF so' R orders orders' hp hrt h2.inside c.world.rels
  refine ⟨attachLoaded c id L, _, L.relationships.map Prod.snd, ?_, h4, rfl, loadFrom_reachable h3, h5, ?_,
    fun other ho => ?_,
    rfl, rfl, rfl, rfl, rfl⟩
  · rw [loadPopulation, Act.bind_ok (FS.get_ok fs'), h3]
    rfl
  · exact (Dict.get?_set _ _ _ _).trans (if_pos rfl)
  · exact (Dict.get?_set _ _ _ _).trans (if_neg fun e => ho e.symm)

/-! ### Cases -/

/-- the users of the example circus can be saved on their own -/
theorem exPopulation_storable : ∃ p, exCircus.world.pops[0]? = some p ∧
    StorablePopulation exFormat.text Orders.a exCircus.world.rels p := by
  obtain ⟨p, h1, h2⟩ := exCircus_storable.populations ("users", 0) (by simp [exCircus])
  exact ⟨p, h1, h2⟩

example : Creatable exDisk (["db"] ++ ["shared", "populations"]) ∧
    DepthBelow exDisk (["db"] ++ ["shared", "populations", "people"]) 0 := by
  refine ⟨⟨by simp [exDisk, At], ?_⟩, ?_⟩
  · rintro q n ⟨r, hr⟩ hn
    simp only [exDisk, At, List.mem_cons, Prod.mk.injEq, List.not_mem_nil, or_false] at hn
    rcases hn with ⟨rfl, rfl⟩ | ⟨rfl, rfl⟩ | ⟨rfl, rfl⟩
    · rfl
    · rfl
    · simp at hr
  · intro r n hn
    simp [exDisk, At] at hn

/-- the users of `demo`, saved as `people` in the namespace `shared`, then loaded in an empty circus -/
def exSaved : Option (Circus Nat String × FS) :=
  match (do
    savePopulation exFormat (SetOrder.dedup String) 9 Orders.a ["db"] exCircus.world 0 "shared" "people"
    loadPopulation exFormat (SetOrder.dedup String) Rng.counter Orders.b ["db"]
      { exCircus with populations := [], generators := [], world := { exCircus.world with rels := [], pops := [] } }
      "shared" "people" : Act FS (Circus Nat String)) exDisk with
  | .ok c fs => some (c, fs)
  | .error .. => none

example : (exSaved.map fun x => exMembers x.1) = some [("people", exPop.ids)] := by decide +kernel

example : (exSaved.map fun x => exRelations "people" "FRIENDS" x.1) =
    some (7, [(.str "a", .str "c", 1/2), (.str "a", .str "b", 1)]) := by decide +kernel

example : (exSaved.map fun x => Dict.get? x.2 ["db", "other"]) = some (some (.file "x".toList)) := by decide +kernel

end Db
end Trumania
