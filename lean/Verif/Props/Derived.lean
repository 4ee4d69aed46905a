import Verif.Props.GeneratorSizes
import Verif.Props.Ids

/-!
# Properties C79, C80, C81

Generators derived from others: `map`, `flatmap`, bulk generators.
-/

namespace Trumania
open World

section
variable {σ γ : Type} {env : Env σ γ}

/-- **C79** `map` gives what its parent gives, each value transformed, and raises what its parent or its
function raises. -/
theorem C79_map {g : GenRef} {f : Cell → Py Cell} {n : Rat} {w w' : World σ γ} {cells : List Cell} :
    generate env (.mapped g f) n w = .ok cells w' ↔
      ∃ raw, generate env g n w = .ok raw w' ∧ List.Forall₂ (fun x y => f x = .ok y) raw cells := by
  constructor
  · intro h
    obtain ⟨v, w1, h1, h⟩ := Act.bind_eq_ok.1 h
    obtain ⟨hv, rfl⟩ := Act.ofPy_eq_ok.1 h
    exact ⟨v, h1, mapM_ok_iff.1 hv⟩
  · rintro ⟨raw, h1, h2⟩
    exact Act.bind_eq_ok.2 ⟨raw, w', h1, Act.ofPy_eq_ok.2 ⟨mapM_ok_iff.2 h2, rfl⟩⟩

/-- **C79** `map` wants exactly one of its two functions. -/
theorem C79_map_arguments (g : GenRef) (f : Option (Cell → Py Cell))
    (fVect : Option (List Cell → Py (List Cell))) :
    (∃ e, g.map? f fVect = .ok e) ↔ (f.isSome ≠ fVect.isSome) := by
  cases f <;> cases fVect <;> simp [GenRef.map?]

end

section
variable {σ : Type} {env : Env σ (AnyGen σ)} {R : Rng σ}

/-- the class of a generator object -/
def Spec.kind : AnyGen σ → Nat
  | .constant _ => 0
  | .fixed _ => 1
  | .seq _ => 2
  | .uniform _ _ _ => 3
  | .choice _ _ _ => 4
  | .pareto _ _ _ => 5
  | .msisdn _ _ => 6
  | .cyclic _ => 7
  | .trigger _ _ => 8
  | .bulk _ => 9

theorem generate_kind {g g' : AnyGen σ} {n : Rat} {v : List Cell}
    (h : AnyGen.generate R g n = .ok (v, g')) : Spec.kind g' = Spec.kind g := by
  cases g <;> simp only [AnyGen.generate] at h
  case constant => split at h <;> cases h; rfl
  case fixed =>
    split at h
    · obtain ⟨a, -, h⟩ := bind_eq_ok.1 h
      cases h; rfl
    · cases h
  case seq => cases h; rfl
  case uniform => split at h <;> cases h; rfl
  case choice =>
    split at h
    · obtain ⟨⟨a, s⟩, -, h⟩ := bind_eq_ok.1 h
      cases h; rfl
    · cases h
  case pareto => split at h <;> cases h; rfl
  case msisdn =>
    split at h
    · obtain ⟨⟨a, s⟩, -, h⟩ := bind_eq_ok.1 h
      cases h; rfl
    · cases h
  all_goals cases h

theorem observe_kind {g g' : AnyGen σ} {obs v : List Cell}
    (h : AnyGen.observe R g obs = .ok (v, g')) : Spec.kind g' = Spec.kind g := by
  cases g <;> simp only [AnyGen.observe] at h
  case constant => cases h; rfl
  case cyclic =>
    obtain ⟨a, -, h⟩ := bind_eq_ok.1 h
    cases h; rfl
  case trigger =>
    obtain ⟨a, -, h⟩ := bind_eq_ok.1 h
    obtain ⟨⟨b, s⟩, -, h⟩ := bind_eq_ok.1 h
    cases h; rfl
  case bulk =>
    obtain ⟨⟨b, s⟩, -, h⟩ := bind_eq_ok.1 h
    cases h; rfl
  all_goals cases h

theorem call_kind (hs : env.sem = AnyGen.sem R) {g : GenRef} {q : Request}
    {w w' : World σ (AnyGen σ)} {cells : List Cell} (h : call env g q w = .ok cells w') (i : Nat) :
    w'.gens[i]?.map Spec.kind = w.gens[i]?.map Spec.kind := by
  refine call_steps (P := fun w w' => w'.gens[i]?.map Spec.kind = w.gens[i]?.map Spec.kind)
    (fun _ => rfl) (fun _ _ _ h1 h2 => h2.trans h1) ?_ ?_ h
  · intro w j g n v g' hg h
    rw [hs] at h
    have := generate_kind (R := R) h
    rw [withGen_gens]
    rcases eq_or_ne j i with rfl | hne
    · rw [List.getElem?_set_self (List.getElem?_eq_some_iff.1 hg).1, hg, Option.map_some,
        Option.map_some, this]
    · rw [List.getElem?_set_ne hne]
  · intro w j g obs v g' hg h
    rw [hs] at h
    have := observe_kind (R := R) h
    rw [withGen_gens]
    rcases eq_or_ne j i with rfl | hne
    · rw [List.getElem?_set_self (List.getElem?_eq_some_iff.1 hg).1, hg, Option.map_some,
        Option.map_some, this]
    · rw [List.getElem?_set_ne hne]

/-- **C79** `flatmap` never works with a constant or a cyclic timer as dependent generator: they want
observations with an index, and samples never have one. The only dependent generators that accept the
samples of all the generators are the bulk ones. -/
theorem C79_flatmap_refused (hs : env.sem = AnyGen.sem R) {g : GenRef} {i : Nat} {a : AnyGen σ}
    {n : Rat} {w w' : World σ (AnyGen σ)} {cells : List Cell} (hw : w.gens[i]? = some a)
    (h : generate env (.flatmapped g (.ref i)) n w = .ok cells w') :
    (∃ m s, a = .trigger m s) ∨ ∃ e, a = .bulk e := by
  obtain ⟨v, w1, h1, h2⟩ := Act.bind_eq_ok.1 h
  obtain ⟨b, w2, h3, h4⟩ := Act.bind_eq_ok.1 h2
  obtain rfl := isArray_eq_ok h3
  obtain ⟨a', w3, h5, h6⟩ := Act.bind_eq_ok.1 h4
  obtain ⟨ha', rfl⟩ := getGen_eq_ok.1 h5
  obtain ⟨_, w4, h7, -⟩ := Act.bind_eq_ok.1 h6
  obtain ⟨hacc, -⟩ := Act.ofPy_eq_ok.1 h7
  have hk := call_kind hs h1 i
  rw [ha', hw] at hk
  simp only [Option.map_some, Option.some.injEq] at hk
  rw [hs] at hacc
  simp only [AnyGen.sem] at hacc
  cases a' <;> simp only [AnyGen.accepts] at hacc
  case trigger => cases a <;> simp [Spec.kind] at hk ⊢
  case bulk => cases a <;> simp [Spec.kind] at hk ⊢
  all_goals cases hacc

/-- **C79** `flatmap` works with a bulk generator, for every parent: its values are the observations. -/
theorem C79_flatmap_bulk (hs : env.sem = AnyGen.sem R) {i j : Nat} {e b : AnyGen σ} {n : Rat}
    {w w1 : World σ (AnyGen σ)} {v cells : List Cell} (h : generate env (.ref j) n w = .ok v w1)
    (hw : w1.gens[i]? = some (.bulk e)) (hobs : AnyGen.observe R (.bulk e) v = .ok (cells, b)) :
    ∃ w', generate env (.flatmapped (.ref j) (.ref i)) n w = .ok cells w' := by
  have h' := h
  obtain ⟨a, w2, h2, h3⟩ := Act.bind_eq_ok.1 h
  obtain ⟨ha, rfl⟩ := getGen_eq_ok.1 h2
  obtain ⟨⟨v1, a1⟩, w3, h4, h5⟩ := Act.bind_eq_ok.1 h3
  obtain ⟨h4, rfl⟩ := Act.ofPy_eq_ok.1 h4
  have hlt := (List.getElem?_eq_some_iff.1 ha).1
  obtain ⟨a2, ha2⟩ : ∃ a2, w1.gens[j]? = some a2 := by
    have hk := call_kind hs h' j
    rw [ha] at hk
    cases hj : w1.gens[j]? with
    | none => rw [hj] at hk; cases hk
    | some x => exact ⟨x, rfl⟩
  refine ⟨withGen w1 i b, ?_⟩
  refine (Act.bind_ok h').trans ?_
  have h6 : isArray env (.ref j) w1 = .ok (env.sem.isArray a2) w1 :=
    (Act.bind_ok (getGen_eq_ok.2 ⟨ha2, rfl⟩)).trans rfl
  refine (Act.bind_ok h6).trans ?_
  refine (Act.bind_ok (getGen_eq_ok.2 ⟨hw, rfl⟩)).trans ?_
  have h7 : env.sem.accepts (.bulk e) (env.sem.isArray a2) = .ok () := by rw [hs]; rfl
  refine (Act.bind_ok (Act.ofPy_ok h7 w1)).trans ?_
  have h8 : env.sem.observe (.bulk e) v = .ok (cells, b) := by rw [hs]; exact hobs
  exact (Act.bind_ok (Act.ofPy_ok h8 w1)).trans rfl

/-- **C79** a trigger after `flatmap` needs a parent whose samples are a numpy array: after `map`,
`flatmap`, or a generator returning a list, it always fails. -/
theorem C79_trigger_needs_array (hs : env.sem = AnyGen.sem R) {g : GenRef} {i : Nat}
    {m : List Rat → List Rat} {s : σ} {n : Rat} {w w' : World σ (AnyGen σ)} {cells : List Cell}
    (hw : w.gens[i]? = some (.trigger m s))
    (h : generate env (.flatmapped g (.ref i)) n w = .ok cells w') :
    ∃ j a, g = .ref j ∧ w'.gens[j]? = some a ∧ 3 ≤ Spec.kind a ∧ Spec.kind a ≤ 6 := by
  have hall := h
  obtain ⟨v, w1, h1, h2⟩ := Act.bind_eq_ok.1 h
  obtain ⟨b, w2, h3, h4⟩ := Act.bind_eq_ok.1 h2
  have e := isArray_eq_ok h3
  rw [e] at h3 h4
  obtain ⟨a', w3, h5, h6⟩ := Act.bind_eq_ok.1 h4
  obtain ⟨ha', rfl⟩ := getGen_eq_ok.1 h5
  obtain ⟨_, w4, h7, -⟩ := Act.bind_eq_ok.1 h6
  obtain ⟨hacc, -⟩ := Act.ofPy_eq_ok.1 h7
  have hk := call_kind hs h1 i
  rw [ha', hw] at hk
  simp only [Option.map_some, Option.some.injEq] at hk
  rw [hs] at hacc
  simp only [AnyGen.sem] at hacc
  cases a' <;> simp only [Spec.kind] at hk <;> try omega
  cases b with
  | false => simp [AnyGen.accepts] at hacc
  | true =>
    cases g with
    | ref j =>
      obtain ⟨c, w5, h8, h9⟩ := Act.bind_eq_ok.1 h3
      obtain ⟨hc, rfl⟩ := getGen_eq_ok.1 h8
      obtain ⟨h10, -⟩ := Act.pure_eq_ok.1 h9
      rw [hs] at h10
      have hk' := call_kind hs h4 j
      rw [hc] at hk'
      cases hj : w'.gens[j]? with
      | none => rw [hj] at hk'; simp at hk'
      | some d =>
        rw [hj] at hk'
        simp only [Option.map_some, Option.some.injEq] at hk'
        refine ⟨j, d, rfl, hj, ?_⟩
        rw [hk']
        cases c <;> simp [AnyGen.sem, AnyGen.isArray, Spec.kind] at h10 ⊢
    | _ => exact absurd (Act.pure_eq_ok.1 h3).1 (by simp)

end

/-! ### C80 -/

section
variable {σ : Type} {env : Env σ (AnyGen σ)} {R : Rng σ}

theorem call_seq (hs : env.sem = AnyGen.sem R) {i : Nat} {n : Rat} {g : SeqGen}
    {w w' : World σ (AnyGen σ)} {cells : List Cell} (hw : w.gens[i]? = some (.seq g))
    (h : call env (.ref i) (.size n) w = .ok cells w') :
    cells = (g.generate n).1.map Cell.str ∧ w'.gens[i]? = some (.seq (g.generate n).2) := by
  obtain ⟨a, w1, h1, h⟩ := Act.bind_eq_ok.1 h
  obtain ⟨g1, rfl⟩ := getGen_eq_ok.1 h1
  obtain ⟨⟨v, a'⟩, w2, h2, h⟩ := Act.bind_eq_ok.1 h
  obtain ⟨g2, rfl⟩ := Act.ofPy_eq_ok.1 h2
  obtain ⟨_, w3, h3, h⟩ := Act.bind_eq_ok.1 h
  obtain ⟨rfl, rfl⟩ := Act.pure_eq_ok.1 h
  rw [hw] at g1
  obtain rfl := Option.some.inj g1
  rw [hs] at g2
  cases g2
  refine ⟨rfl, ?_⟩
  rw [setGen_eq_ok.1 h3]
  exact List.getElem?_set_self (List.getElem?_eq_some_iff.1 hw).1

theorem values_str (l : List String) : Spec.values (l.map Cell.str) = l.map Val.str := by
  induction l with
  | nil => rfl
  | cons a l ih => simp only [List.map_cons, Spec.values, List.flatMap_cons]; rw [← ih]; rfl

theorem bulkLoop_seq (hs : env.sem = AnyGen.sem R) {i : Nat} {g : SeqGen} {obs : List Cell}
    {w w' : World σ (AnyGen σ)} {cells : List Cell} (hw : w.gens[i]? = some (.seq g))
    (h : bulkLoop (fun n => call env (.ref i) (.size n)) obs w = .ok cells w') :
    ∃ sizes : List Rat, obs = sizes.map Cell.num ∧
      cells = (g.generates sizes).1.map (fun l => Cell.list (l.map Val.str)) ∧
      w'.gens[i]? = some (.seq (g.generates sizes).2) := by
  induction obs generalizing w g cells with
  | nil =>
    obtain ⟨rfl, rfl⟩ := Act.pure_eq_ok.1 h
    exact ⟨[], rfl, rfl, hw⟩
  | cons c obs ih =>
    rw [bulkLoop] at h
    obtain ⟨n, w1, h1, h⟩ := Act.bind_eq_ok.1 h
    obtain ⟨hn, rfl⟩ := Act.ofPy_eq_ok.1 h1
    obtain ⟨v, w2, h2, h⟩ := Act.bind_eq_ok.1 h
    obtain ⟨vals, w3, h3, h⟩ := Act.bind_eq_ok.1 h
    obtain ⟨hvals, rfl⟩ := Act.ofPy_eq_ok.1 h3
    obtain ⟨rest, w4, h4, h⟩ := Act.bind_eq_ok.1 h
    obtain ⟨rfl, rfl⟩ := Act.pure_eq_ok.1 h
    obtain ⟨rfl, hw2⟩ := call_seq hs hw h2
    obtain ⟨sizes, rfl, rfl, hw4⟩ := ih hw2 h4
    refine ⟨n :: sizes, ?_, ?_, hw4⟩
    · rw [List.map_cons]
      congr 1
      match c, hn with
      | .scalar (.num q), hn => cases hn; rfl
    · have := scalar_of_asVal hvals
      have e : vals = (g.generate n).1.map Val.str := by
        have := congrArg Spec.values this
        rw [values_str] at this
        rw [this]
        clear * -
        induction vals with
        | nil => rfl
        | cons a l ih => simp only [List.map_cons, Spec.values, List.flatMap_cons]; rw [← Spec.values, ← ih]; rfl
      rw [e]; rfl

theorem values_bulk (l : List (List String)) :
    Spec.values (l.map fun x => Cell.list (x.map Val.str)) = l.flatten.map Val.str := by
  induction l with
  | nil => rfl
  | cons a l ih =>
    rw [List.flatten_cons, List.map_append, ← ih]
    rfl

/-- the ids of `total` successive counters -/
def Spec.idsFrom (g : SeqGen) (total : Nat) : List Val :=
  (List.range total).map fun (k : Nat) => Val.str (buildId g.pre g.maxLength (g.counter + k))

theorem handsOut_ids (hs : env.sem = AnyGen.sem R) {i : Nat} {g : SeqGen} {e : GenRef} {q : Request}
    {w w' : World σ (AnyGen σ)} {cells : List Cell} (hw : w.gens[i]? = some (.seq g))
    (he : Spec.HandsOut env i e q) (h : call env e q w = .ok cells w') :
    ∃ sizes : List Rat, (∀ n ∈ sizes, 0 ≤ n) ∧
      Spec.values cells = (g.generates sizes).1.flatten.map Val.str ∧
      w'.gens[i]? = some (.seq (g.generates sizes).2) := by
  cases he with
  | @own n hn =>
    obtain ⟨rfl, h2⟩ := call_seq hs hw h
    refine ⟨[n], by simpa using hn, ?_, h2⟩
    rw [values_str]
    simp [SeqGen.generates]
  | @bulk obs hobs =>
    obtain ⟨sizes, rfl, rfl, h2⟩ := bulkLoop_seq hs hw h
    refine ⟨sizes, fun n hn => ?_, values_bulk _, h2⟩
    obtain ⟨q, hq, e⟩ := hobs _ (List.mem_map_of_mem hn)
    cases e; exact hq
  | @flatmap s n hi hpos =>
    obtain ⟨v, w1, h1, h⟩ := Act.bind_eq_ok.1 h
    obtain ⟨b, w2, h2, h3⟩ := Act.bind_eq_ok.1 h
    obtain rfl := isArray_eq_ok h2
    rw [← call_gens_other hi h1] at hw
    obtain ⟨sizes, rfl, rfl, h4⟩ := bulkLoop_seq hs hw h3
    refine ⟨sizes, fun n hn => ?_, values_bulk _, h4⟩
    obtain ⟨q, hq, e⟩ := hpos _ _ _ h1 _ (List.mem_map_of_mem hn)
    cases e; exact hq

theorem generates_append (g : SeqGen) (a b : List Rat) :
    (g.generates (a ++ b)).1 = (g.generates a).1 ++ ((g.generates a).2.generates b).1 ∧
    (g.generates (a ++ b)).2 = ((g.generates a).2.generates b).2 := by
  induction a generalizing g with
  | nil => exact ⟨rfl, rfl⟩
  | cons n a ih =>
    simp only [SeqGen.generates, List.cons_append]
    exact ⟨by rw [(ih _).1], (ih _).2⟩

/-- **C80** A sequential id generator shared by several generators, asked in any order through any of
them, hands out successive ids, each once. -/
theorem C80_shared_ids (hs : env.sem = AnyGen.sem R) {i : Nat} {g : SeqGen}
    {w w' : World σ (AnyGen σ)} {hist : List (GenRef × Request × List Cell)}
    (hw : w.gens[i]? = some (.seq g)) (h : Spec.Calls env w hist w')
    (hall : ∀ c ∈ hist, i ∉ Spec.refs c.1 ∨ Spec.HandsOut env i c.1 c.2.1) :
    ∃ total : Nat, Spec.handedOut i hist = Spec.idsFrom g total ∧
      w'.gens[i]? = some (.seq { g with counter := g.counter + total }) ∧
      (Spec.handedOut i hist).Nodup := by
  have key : ∃ sizes : List Rat, (∀ n ∈ sizes, 0 ≤ n) ∧
      Spec.handedOut i hist = (g.generates sizes).1.flatten.map Val.str ∧
      w'.gens[i]? = some (.seq (g.generates sizes).2) := by
    induction h generalizing g with
    | none w => exact ⟨[], by simp, rfl, hw⟩
    | @more w w1 w2 e q cells rest h1 _ ih =>
      have hrest : ∀ c ∈ rest, i ∉ Spec.refs c.1 ∨ Spec.HandsOut env i c.1 c.2.1 :=
        fun c hc => hall c (List.mem_cons_of_mem _ hc)
      rcases hall (e, q, cells) (by simp) with hi | he
      · rw [← call_gens_other hi h1] at hw
        obtain ⟨sizes, h2, h3, h4⟩ := ih hw hrest
        refine ⟨sizes, h2, ?_, h4⟩
        rw [← h3]
        simp [Spec.handedOut, hi]
      · obtain ⟨a, ha, h2, hw1⟩ := handsOut_ids hs hw he h1
        obtain ⟨b, hb, h3, h4⟩ := ih hw1 hrest
        have hi : i ∈ Spec.refs e := by
          cases he with
          | own _ => simp [Spec.refs]
          | bulk _ => simp [Spec.refs]
          | flatmap _ _ => simp [Spec.refs]
        refine ⟨a ++ b, ?_, ?_, ?_⟩
        · intro n hn
          rcases List.mem_append.1 hn with hn | hn
          · exact ha n hn
          · exact hb n hn
        · rw [(generates_append g a b).1, List.flatten_append, List.map_append, ← h2, ← h3]
          simp [Spec.handedOut, hi]
        · rw [(generates_append g a b).2]; exact h4
  obtain ⟨sizes, h1, h2, h3⟩ := key
  have h0 := totalSize_nonneg h1
  refine ⟨(totalSize sizes).toNat, ?_, ?_, ?_⟩
  · rw [h2, C04_sequential_ids_consecutive g sizes h1]
    simp [Spec.idsFrom, arange]
  · rw [h3, generates_params]
    congr 4
    omega
  · rw [h2]
    exact (C04_sequential_ids_unique g sizes h1).1.map (fun a b hab => by cases hab; rfl)

/-! ### C81 -/

theorem createStockGrp_ids (hs : env.sem = AnyGen.sem R) {w w' : World σ (AnyGen σ)} {pop i : Nat}
    {name : String} {s : GenRef} {g : SeqGen} {u : Unit} (hw : w.gens[i]? = some (.seq g))
    (hi : i ∉ Spec.refs s)
    (h : Circus.createStockGrp env pop name (.flatmapped s (.bulk (.ref i))) w = .ok u w') :
    ∃ p r w1 sizes, Spec.NewRelationship w w' pop name p r ∧
      generate env s (p.size : Rat) w = .ok (sizes.map Cell.num) w1 ∧
      w'.gens[i]? = some (.seq (g.generates sizes).2) ∧
      ∀ o, (r.get_relations o).Perm ((p.ids.zip (g.generates sizes).1).flatMap fun x =>
        x.2.map fun t => (x.1, Val.str t, 1)) := by
  obtain ⟨p, r, bulks, w1, h1, h2, h3, h4⟩ := C71_grouped h
  obtain ⟨v, w2, h5, h6⟩ := Act.bind_eq_ok.1 h2
  obtain ⟨b, w3, h7, h8⟩ := Act.bind_eq_ok.1 h6
  obtain rfl := isArray_eq_ok h7
  rw [← call_gens_other hi h5] at hw
  obtain ⟨sizes, rfl, h9, h10⟩ := bulkLoop_seq hs hw h8
  refine ⟨p, r, _, sizes, h1, h5, ?_, fun o => ?_⟩
  · rw [← h10, gens, gens, h3]
  · have : bulks = (g.generates sizes).1.map (fun l => l.map Val.str) := by
      have h9' : bulks.map Cell.list = ((g.generates sizes).1.map fun l => l.map Val.str).map Cell.list := by
        rw [h9, List.map_map]; rfl
      exact List.map_injective_iff.2 (fun a b hab => by cases hab; rfl) h9'
    have h11 := h4 o
    rw [this, List.zip_map_right, List.flatMap_map] at h11
    simpa [List.map_map, Function.comp_def] using h11

theorem generates_length (g : SeqGen) (sizes : List Rat) : (g.generates sizes).1.length = sizes.length := by
  induction sizes generalizing g with
  | nil => rfl
  | cons n ns ih => simp only [SeqGen.generates, List.length_cons, ih]

/-- **C81** `create_stock_relationship_grp` with `sizes.flatmap(DependentBulkGenerator(ids))`: every item
of the stock is a new id, owned once by one member, and the member at position `k` owns as many items as
the `k`-th drawn size (truncated). The ids follow each other from the counter of the generator, which is left
after the last one. -/
theorem C81_stock_of_ids (hs : env.sem = AnyGen.sem R) {w w' : World σ (AnyGen σ)} {pop i : Nat}
    {name : String} {s : GenRef} {g : SeqGen} {u : Unit} {p : Population}
    (hw : w.gens[i]? = some (.seq g)) (hi : i ∉ Spec.refs s) (hk : Spec.KeepsLengths s)
    (hpos : ∀ w cells w' n, generate env s n w = .ok cells w' → ∀ c ∈ cells, Spec.IsCount c)
    (hp : w.pops[pop]? = some p) (hsize : p.ids.length = p.size) (hids : p.ids.Nodup)
    (h : Circus.createStockGrp env pop name (.flatmapped s (.bulk (.ref i))) w = .ok u w') :
    ∃ r w1 sizes total, Spec.NewRelationship w w' pop name p r ∧
      generate env s (p.size : Rat) w = .ok (sizes.map Cell.num) w1 ∧ sizes.length = p.size ∧
      w'.gens[i]? = some (.seq { g with counter := g.counter + (total : Nat) }) ∧
      ∀ o, ((r.get_relations o).map fun x => x.2.1).Perm (Spec.idsFrom g total) ∧
        ((r.get_relations o).map fun x => x.2.1).Nodup ∧
        ∀ x ∈ p.ids.zip sizes,
          ((r.get_relations o).filter fun y => y.1 = x.1).length = (pyInt x.2).toNat := by
  obtain ⟨p', r, w1, sizes, h1, h2, h3, h4⟩ := createStockGrp_ids hs hw hi h
  obtain rfl : p = p' := by have := h1.was; rw [hp] at this; cases this; rfl
  have hlen : sizes.length = p.size := by
    have := (C79_derived_counts hs hk).1 _ h2
    simpa using this
  have hnn : ∀ n ∈ sizes, 0 ≤ n := by
    intro n hn
    obtain ⟨q, hq, e⟩ := hpos _ _ _ _ h2 _ (List.mem_map_of_mem hn)
    cases e; exact hq
  have h0 := totalSize_nonneg hnn
  have hto : ∀ l : List Val, ∀ b : List (List String), l.length = b.length →
      ((l.zip b).flatMap fun x => x.2.map fun t => (x.1, Val.str t, (1 : Rat))).map (fun x => x.2.1) =
      b.flatten.map Val.str := by
    intro l
    induction l with
    | nil =>
      intro b hb
      rw [List.length_eq_zero_iff.1 hb.symm]
      rfl
    | cons a l ih =>
      intro b hb
      cases b with
      | nil => cases hb
      | cons x b =>
        rw [List.zip_cons_cons, List.flatMap_cons, List.map_append, ih b (by simpa using hb),
          List.flatten_cons, List.map_append, List.map_map]
        rfl
  have hlen' : p.ids.length = (g.generates sizes).1.length := by
    rw [generates_length, hlen, hsize]
  refine ⟨r, w1, sizes, (totalSize sizes).toNat, h1, h2, hlen, ?_, fun o => ⟨?_, ?_, ?_⟩⟩
  · rw [h3, generates_params]
    congr 4
    omega
  · refine ((h4 o).map _).trans ?_
    rw [hto _ _ hlen', C04_sequential_ids_consecutive g sizes hnn]
    simp only [Spec.idsFrom, arange, List.map_map]
    rfl
  · refine ((h4 o).map _).nodup_iff.2 ?_
    rw [hto _ _ hlen']
    exact (C04_sequential_ids_unique g sizes hnn).1.map (fun a b hab => by cases hab; rfl)
  · intro x hx
    rw [((h4 o).filter _).length_eq]
    have h5 := (C04_sequential_ids_unique g sizes hnn).2
    clear * - hx hids h5
    generalize (g.generates sizes).1 = b at h5 ⊢
    generalize p.ids = l at hx hids ⊢
    induction l generalizing sizes b with
    | nil => simp at hx
    | cons a l ih =>
      cases sizes with
      | nil => simp at hx
      | cons n sizes =>
        cases b with
        | nil => simp at h5
        | cons v b =>
          simp only [List.map_cons, List.cons.injEq] at h5
          rw [List.nodup_cons] at hids
          rw [List.zip_cons_cons, List.flatMap_cons, List.filter_append, List.length_append]
          rw [List.zip_cons_cons, List.mem_cons] at hx
          rcases hx with rfl | hx
          · have e1 : ((v.map fun t => (a, Val.str t, (1 : Rat))).filter fun y => y.1 = a) =
                v.map fun t => (a, Val.str t, (1 : Rat)) := by
              rw [List.filter_eq_self]
              intro y hy
              obtain ⟨t, -, rfl⟩ := List.mem_map.1 hy
              simp
            have e2 : (((l.zip b).flatMap fun x => x.2.map fun t => (x.1, Val.str t, (1 : Rat))).filter
                fun y => y.1 = a) = [] := by
              rw [List.filter_eq_nil_iff]
              intro y hy
              obtain ⟨z, hz, hy⟩ := List.mem_flatMap.1 hy
              obtain ⟨t, -, rfl⟩ := List.mem_map.1 hy
              have := (List.of_mem_zip hz).1
              simp only [decide_eq_true_eq]
              rintro rfl
              exact hids.1 this
            simp only at e1 e2 ⊢
            rw [e1, e2, List.length_map, h5.1]; rfl
          · have hne : ¬ a = x.1 := by
              rintro rfl
              exact hids.1 (List.of_mem_zip hx).1
            have e1 : ((v.map fun t => (a, Val.str t, (1 : Rat))).filter fun y => y.1 = x.1) = [] := by
              rw [List.filter_eq_nil_iff]
              intro y hy
              obtain ⟨t, -, rfl⟩ := List.mem_map.1 hy
              simpa using hne
            rw [e1, List.length_nil, Nat.zero_add]
            exact ih sizes b h5.2 hx hids.2

end

/-! ### Concrete cases -/

/-- a circus with ids, sizes, a trigger and a cyclic timer -/
def exDerived : World Nat (AnyGen Nat) := { exWorld with
  clock := { exWorld.clock with listeners :=
    [.seq ⟨0, "id_", 3⟩, .choice [.num 1, .num 2] none 0, .fixed [.num 2, .num (-2), .num 2],
      .trigger id 0] } }

/-- ids drawn directly, then in bulks, then directly again -/
example : ((do
    let a ← generate exEnv (.ref 0) 2
    let b ← generate exEnv (.flatmapped (.ref 1) (.bulk (.ref 0))) 3
    let c ← generate exEnv (.mapped (.ref 0) fun x => do .ok (.list [← x.asVal])) 1
    pure (a ++ b ++ c)).value? exDerived) =
    some [.str "id_000", .str "id_001", .list [.str "id_002"],
      .list [.str "id_003", .str "id_004"], .list [.str "id_005"], .list [.str "id_006"]] := by
  decide +kernel

/-- the sizes of the bulks are counts -/
example : ∀ w cells w' n, generate exEnv (.constant (.num 2)) n w = .ok cells w' →
    ∀ c ∈ cells, Spec.IsCount c := by
  intro w cells w' n h c hc
  obtain ⟨rfl, -⟩ := Act.pure_eq_ok.1 h
  exact ⟨2, by norm_num, List.eq_of_mem_replicate hc⟩

/-- **C80** without the condition on the sizes the ids repeat: a negative size, which a normal law can
draw, moves the counter back. -/
theorem C80_negative_size_repeats : ∃ (e : GenRef) (cells : List Cell) (w' : World Nat (AnyGen Nat)),
    generate exEnv e 3 exDerived = .ok cells w' ∧ Spec.refs e = [2, 0] ∧
    Spec.values cells = [.str "id_000", .str "id_001", .str "id_000", .str "id_001"] := by
  refine ⟨.flatmapped (.ref 2) (.bulk (.ref 0)), ?_⟩
  have h : ((generate exEnv (.flatmapped (.ref 2) (.bulk (.ref 0))) 3).value? exDerived).map Spec.values =
      some [.str "id_000", .str "id_001", .str "id_000", .str "id_001"] := by decide +kernel
  rw [Act.value?] at h
  split at h
  · rename_i cells w' h1
    exact ⟨cells, w', h1, rfl, Option.some.inj h⟩
  · simp at h

/-- a trigger works on the draws of numpy, and is refused on what `map` makes of them -/
example : ((generate exEnv (.flatmapped (.ref 1) (.ref 3)) 2).value? exDerived) =
      some [.bool true, .bool true] ∧
    ((generate exEnv (.flatmapped (.mapped (.ref 1) .ok) (.ref 3)) 2).raised? exDerived) =
      some .attributeError := by decide +kernel

example : ((Circus.createStockGrp exEnv 0 "SIMS" (.flatmapped (.ref 1) (.bulk (.ref 0)))).world?
    exDerived).map (fun w => w.rels.map fun r => r.get_relations Orders.a) =
    some [[(.str "a", .str "id_000", 1), (.str "b", .str "id_001", 1), (.str "b", .str "id_002", 1),
      (.str "c", .str "id_003", 1)]] := by decide +kernel

end Trumania
