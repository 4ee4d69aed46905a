import Verif.Spec.Describe
import Verif.Props.Db

/-!
# Descriptions of a circus
-/

namespace Trumania
open Spec

namespace Circus
variable {σ γ : Type}

/-! ### C129 -/

theorem popDescribed_iff {c : Circus σ γ} {x : String × Nat} {y : String × PyObj} :
    c.describedPopulation x = .ok y ↔ ∃ p, c.world.pops[x.2]? = some p ∧ y = (x.1, p.description) := by
  rw [describedPopulation]
  cases c.world.pops[x.2]? with
  | none => simp
  | some p => simp [eq_comm]

theorem genDescribed_iff {describe : γ → Py PyObj} {c : Circus σ γ} {x : String × Nat}
    {y : String × PyObj} :
    c.describedGenerator describe x = .ok y ↔
    ∃ g d, c.world.gens[x.2]? = some g ∧ describe g = .ok d ∧ y = (x.1, d) := by
  rw [describedGenerator]
  cases c.world.gens[x.2]? with
  | none => simp
  | some g =>
    simp only [bind_eq_ok, Option.some.injEq, exists_and_left, exists_eq_left']
    exact exists_congr fun d => and_congr_right fun _ => by rw [Except.ok.injEq, eq_comm]

/-- **C129** When the description of a circus can be made, it tells its name and its master seed, and has an
entry for each population and each generator attached to it and for nothing else: the size and the names of
the attributes and relationships of a population, and the description of a generator. -/
theorem C129_description (describe : γ → Py PyObj) (c : Circus σ γ) (o : PyObj)
    (h : c.description describe = .ok o) :
    Tells o ["circus_name"] (.str c.name) ∧ Tells o ["master_seed"] (.num c.masterSeed) ∧
    (∀ name, (∃ v, Tells o ["populations", name] v) ↔ ∃ i, (name, i) ∈ c.populations) ∧
    (∀ id, (∃ v, Tells o ["generators", id] v) ↔ ∃ i, (id, i) ∈ c.generators) ∧
    (∀ name i, (name, i) ∈ c.populations → ∃ p, c.world.pops[i]? = some p ∧
      Tells o ["populations", name, "size"] (.num p.size) ∧
      Tells o ["populations", name, "attributes"] (.keysView (p.attributes.map Prod.fst)) ∧
      Tells o ["populations", name, "relationships"] (.keysView (p.relationships.map Prod.fst))) ∧
    (∀ id i, (id, i) ∈ c.generators → ∃ g d, c.world.gens[i]? = some g ∧ describe g = .ok d ∧
      Tells o ["generators", id] d) := by
  obtain ⟨pops, h1, h⟩ := bind_eq_ok.1 h
  obtain ⟨gens, h2, h⟩ := bind_eq_ok.1 h
  cases h
  have h1 := mapM_ok_iff.1 h1
  have h2 := mapM_ok_iff.1 h2
  simp only [popDescribed_iff] at h1
  simp only [genDescribed_iff] at h2
  have hp : ∀ ks v, Tells (.dict [("circus_name", .str c.name), ("master_seed", .num c.masterSeed),
      ("populations", .dict pops), ("generators", .dict gens)]) ("populations" :: ks) v ↔
      Tells (.dict pops) ks v := by
    intro ks v; simp [Tells]
  have hg : ∀ ks v, Tells (.dict [("circus_name", .str c.name), ("master_seed", .num c.masterSeed),
      ("populations", .dict pops), ("generators", .dict gens)]) ("generators" :: ks) v ↔
      Tells (.dict gens) ks v := by
    intro ks v; simp [Tells]
  refine ⟨by simp [Tells], by simp [Tells], fun name => ?_, fun id => ?_, fun name i hm => ?_, fun id i hm => ?_⟩
  · constructor
    · rintro ⟨v, hv⟩
      obtain ⟨o, ho, -⟩ := (hp _ _).1 hv
      obtain ⟨⟨n, i⟩, hx, p, -, he⟩ := forall₂_exists_left h1 ho
      cases he
      exact ⟨i, hx⟩
    · rintro ⟨i, hi⟩
      obtain ⟨y, hy, p, -, rfl⟩ := forall₂_exists_right h1 hi
      exact ⟨_, (hp _ _).2 ⟨_, hy, rfl⟩⟩
  · constructor
    · rintro ⟨v, hv⟩
      obtain ⟨o, ho, -⟩ := (hg _ _).1 hv
      obtain ⟨⟨n, i⟩, hx, g, d, -, -, he⟩ := forall₂_exists_left h2 ho
      cases he
      exact ⟨i, hx⟩
    · rintro ⟨i, hi⟩
      obtain ⟨y, hy, g, d, -, -, rfl⟩ := forall₂_exists_right h2 hi
      exact ⟨_, (hg _ _).2 ⟨_, hy, rfl⟩⟩
  · obtain ⟨y, hy, p, h3, rfl⟩ := forall₂_exists_right h1 hm
    refine ⟨p, h3, ?_, ?_, ?_⟩ <;>
      exact (hp _ _).2 ⟨_, hy, by simp [Population.description, Tells, Dict.keys]⟩
  · obtain ⟨y, hy, g, d, h3, h4, rfl⟩ := forall₂_exists_right h2 hm
    exact ⟨g, d, h3, h4, (hg _ _).2 ⟨_, hy, rfl⟩⟩

theorem not_dumpable_of_mem {d : List (String × PyObj)} {k : String} {o : PyObj} (h : (k, o) ∈ d)
    (ho : o.dumpable = false) : (PyObj.dict d).dumpable = false := by
  rw [PyObj.dumpable]
  induction d with
  | nil => simp at h
  | cons x d ih =>
    obtain ⟨k', o'⟩ := x
    rw [PyObj.dumpableItems, Bool.and_eq_false_iff]
    rcases List.mem_cons.1 h with h | h
    · cases h
      exact .inl ho
    · exact .inr (ih h)

/-- **C129** A circus that has a population is never printed: `str(circus)` raises, a `TypeError` when the
descriptions of its members can be made, since the names of the attributes are a `dict_keys`, that
`json` does not know. -/
theorem C129_not_printed (text : PyObj → Text) (describe : γ → Py PyObj) (c : Circus σ γ)
    (hc : c.populations ≠ []) :
    (∀ t, c.toText text describe ≠ .ok t) ∧
    ∀ o, c.description describe = .ok o → c.toText text describe = .error .typeError := by
  have key : ∀ o, c.description describe = .ok o → c.toText text describe = .error .typeError := by
    intro o ho
    rw [toText, ho, bind_ok, PyObj.dumps, if_neg]
    obtain ⟨pops, h1, h⟩ := bind_eq_ok.1 ho
    obtain ⟨gens, h2, h⟩ := bind_eq_ok.1 h
    cases h
    have h1 := mapM_ok_iff.1 h1
    simp only [popDescribed_iff] at h1
    obtain ⟨x, hx⟩ := List.exists_mem_of_ne_nil _ hc
    obtain ⟨y, hy, p, -, rfl⟩ := forall₂_exists_right h1 hx
    have h3 : (PyObj.dict pops).dumpable = false :=
      not_dumpable_of_mem hy (by simp [Population.description, PyObj.dumpable, PyObj.dumpableItems])
    rw [not_dumpable_of_mem (k := "populations") (by simp) h3]
    simp
  refine ⟨fun t ht => ?_, key⟩
  obtain ⟨o, ho, -⟩ := bind_eq_ok.1 ht
  rw [key o ho] at ht
  cases ht

theorem dumpableAll_of {l : List PyObj} (h : ∀ o ∈ l, o.dumpable = true) :
    PyObj.dumpableAll l = true := by
  induction l with
  | nil => rw [PyObj.dumpableAll]
  | cons o l ih =>
    rw [PyObj.dumpableAll, h o (by simp), ih fun o ho => h o (List.mem_cons_of_mem _ ho)]
    rfl

theorem dumpableItems_of {l : List (String × PyObj)} (h : ∀ x ∈ l, x.2.dumpable = true) :
    PyObj.dumpableItems l = true := by
  induction l with
  | nil => rw [PyObj.dumpableItems]
  | cons o l ih =>
    obtain ⟨k, o⟩ := o
    rw [PyObj.dumpableItems, h (k, o) (by simp), ih fun o ho => h o (List.mem_cons_of_mem _ ho)]
    rfl

/-- a generator of the library has a description exactly when it is no dependent one, and json knows it -/
theorem describe_iff {g : AnyGen σ} :
    (¬ Dependent g → ∃ d, g.description = .ok d ∧ d.dumpable = true) ∧
    (Dependent g → ∀ d, g.description ≠ .ok d) := by
  have hv : ∀ a : List Val, PyObj.dumpableAll (a.map PyObj.ofVal) = true := by
    intro a
    apply dumpableAll_of
    intro o ho
    obtain ⟨v, -, rfl⟩ := List.mem_map.1 ho
    cases v <;> simp [PyObj.ofVal, PyObj.dumpable]
  have hn : ∀ a : List Rat, PyObj.dumpableAll (a.map PyObj.num) = true := by
    intro a
    apply dumpableAll_of
    intro o ho
    obtain ⟨v, -, rfl⟩ := List.mem_map.1 ho
    simp [PyObj.dumpable]
  cases g with
  | choice a p s =>
    cases p <;> simp [AnyGen.description, Dependent, PyObj.dumpable, PyObj.dumpableItems, hv, hn]
  | _ => simp [AnyGen.description, Dependent, PyObj.dumpable, PyObj.dumpableItems]

/-- **C129** A circus of the library without any population is printed exactly when none of the generators
attached to it is a timer, a trigger or a bulk generator, that have no description. -/
theorem C129_printed (text : PyObj → Text) (c : Circus σ (AnyGen σ)) (hc : c.populations = [])
    (hr : ∀ id i, (id, i) ∈ c.generators → i < c.world.gens.length) :
    (∃ t, c.toText text AnyGen.description = .ok t) ↔
      ∀ id i g, (id, i) ∈ c.generators → c.world.gens[i]? = some g → ¬ Dependent g := by
  constructor
  · rintro ⟨t, ht⟩ id i g hm hg hdep
    obtain ⟨o, ho, -⟩ := bind_eq_ok.1 ht
    obtain ⟨g', d, h1, h2, -⟩ := (C129_description _ c o ho).2.2.2.2.2 id i hm
    rw [hg] at h1
    cases h1
    exact describe_iff.2 hdep d h2
  · intro h
    have hg : ∃ l, c.describedGenerators AnyGen.description = .ok l ∧ ∀ x ∈ l, x.2.dumpable = true := by
      rw [describedGenerators]
      have : ∀ x ∈ c.generators, ∃ g d, c.world.gens[x.2]? = some g ∧ g.description = .ok d ∧
          d.dumpable = true := by
        rintro ⟨id, i⟩ hx
        have hi := hr id i hx
        obtain ⟨d, hd, hd'⟩ := describe_iff.1 (h id i _ hx (List.getElem?_eq_getElem hi))
        exact ⟨_, d, List.getElem?_eq_getElem hi, hd, hd'⟩
      generalize c.generators = gs at this
      induction gs with
      | nil => exact ⟨[], rfl, by simp⟩
      | cons x gs ih =>
        obtain ⟨l, hl, hl'⟩ := ih fun x hx => this x (List.mem_cons_of_mem _ hx)
        obtain ⟨g, d, h1, h2, h3⟩ := this x (by simp)
        refine ⟨(x.1, d) :: l, ?_, ?_⟩
        · rw [List.mapM_cons, genDescribed_iff.2 ⟨g, d, h1, h2, rfl⟩, bind_ok, hl]
          rfl
        · intro y hy
          rcases List.mem_cons.1 hy with rfl | hy
          · exact h3
          · exact hl' y hy
    obtain ⟨l, hl, hl'⟩ := hg
    refine ⟨text (.dict [("circus_name", .str c.name), ("master_seed", .num c.masterSeed),
      ("populations", .dict []), ("generators", .dict l)]), ?_⟩
    have hp : c.describedPopulations = .ok [] := by
      rw [describedPopulations, hc]; rfl
    rw [toText, description, hp, bind_ok, hl, bind_ok, bind_ok, PyObj.dumps, if_pos]
    simp [PyObj.dumpable, PyObj.dumpableItems, dumpableItems_of hl']

/-! ### Cases -/

example : Db.exCircus.populations ≠ [] := by decide

/-- the description of the example, and the error when it is printed -/
example : (∃ o, Db.exCircus.description (fun s => .ok (.str s)) = .ok o) ∧
    Db.exCircus.toText (fun _ => []) (fun s => .ok (.str s)) = .error .typeError := by
  have h : ∃ o, Db.exCircus.description (fun s => .ok (.str s)) = .ok o := ⟨_, rfl⟩
  exact ⟨h, (C129_not_printed _ _ _ (by decide)).2 _ h.choose_spec⟩

end Circus
end Trumania
