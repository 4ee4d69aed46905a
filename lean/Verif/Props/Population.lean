import Verif.Proofs.OpsPops
import Verif.Spec.ExampleWorld

/-!
# Properties C51 - C55 (populations and attributes)
-/

namespace Trumania
open Spec World
variable {σ γ : Type} {env : Env σ γ} {R : Rng σ}

/-! ### C51 -/

/-- **C51** a population is built exactly from pairwise distinct ids, given or generated. -/
theorem C51_construction (l : List Val) (size : Nat) :
    ((∃ p, Population.new (.ids l) = .ok p) ↔ l.Nodup) ∧
    (size ≠ 0 → ((∃ p, Population.new (.generated l size) = .ok p) ↔ l.Nodup)) ∧
    ∀ init p, Population.new init = .ok p → Population.WF p ∧
      (init = .ids l → p.ids = l ∧ p.size = l.length) ∧
      (init = .generated l size → size ≠ 0 → p.ids = l ∧ p.size = size) := by
  refine ⟨?_, ?_, ?_⟩
  · simp only [Population.new, Population.ofIds]
    split <;> simp_all
  · intro hs
    simp only [Population.new, Population.ofIds, hs, if_false]
    split <;> simp_all
  · intro init p h
    have key : ∀ ids n, Population.ofIds ids n = .ok p → Population.WF p ∧ p.ids = ids ∧
        p.size = n := by
      intro ids n h
      rw [Population.ofIds] at h
      split at h
      · next hn =>
        cases h
        exact ⟨⟨hn, List.nodup_nil, by simp⟩, rfl, rfl⟩
      · cases h
    cases init with
    | ids l' =>
      obtain ⟨e1, e2, e3⟩ := key _ _ h
      refine ⟨e1, ?_, by simp⟩
      intro he
      cases he
      exact ⟨e2, e3⟩
    | generated l' n =>
      rw [Population.new] at h
      split at h
      · next h0 =>
        obtain ⟨e1, e2, e3⟩ := key _ _ h
        refine ⟨e1, by simp, ?_⟩
        intro he hs
        cases he
        exact absurd h0 hs
      · obtain ⟨e1, e2, e3⟩ := key _ _ h
        refine ⟨e1, by simp, ?_⟩
        intro he hs
        cases he
        exact ⟨e2, e3⟩
    | both => cases h
    | neither => cases h

/-- **C51** whatever the calls on a population, its ids stay pairwise distinct, and so do the members
of each of its attributes. -/
theorem C51_history {p p' : Population} (hp : Population.WF p) (h : PopCalls R p p') :
    p'.ids.Nodup ∧ ∀ name a, attributeOf p' name a → OneValueEach a := by
  have : Population.WF p' := by
    induction h with
    | refl => exact hp
    | tail _ h ih => exact Population.popCall_wf h ih
  exact ⟨this.ids, fun name a ha => this.values _ ha⟩

/-- **C51** an update adds exactly the unknown ids. -/
theorem C51_update {p p' : Population} {f : Frame} (h : p.update f = .ok p') (i : Val) :
    i ∈ p'.ids ↔ i ∈ p.ids ∨ i ∈ f.index := by
  obtain ⟨-, -, h3, -, -⟩ := Population.update_eq_ok h
  rw [h3, mem_indexUnion, mem_indexDifference, Population.keepLast_idx]
  by_cases hi : i ∈ p.ids <;> simp [hi, Frame.index]

/-- **C51** nothing but an update of the population changes its ids: the members of a history are the
initial ones and those of the frames inserted. -/
theorem C51_members_never_leave {p p' : Population} (h : PopCalls R p p') :
    ∀ i ∈ p.ids, i ∈ p'.ids := by
  induction h with
  | refl => exact fun _ h => h
  | tail _ h ih =>
    intro i hi
    have := ih i hi
    cases h with
    | createAttribute name values h =>
      obtain ⟨a, -, h⟩ := bind_eq_ok.1 h
      cases h
      exact this
    | update f h => exact (C51_update h i).2 (.inl this)
    | _ => exact this

/-- **C51** during the execution of any story made of built-in operations, the ids of the populations
stay pairwise distinct. -/
theorem C51_in_execution {F Z : Nat → Prop} {ops : List (Op (World σ γ))}
    (hops : ∀ op ∈ ops, BuiltIn env F Z op) {i : Nat} {w w' : World σ γ} {logs : Logs}
    (h : execute env ops i w = .ok logs w') (hw : ∀ p ∈ w.pops, Population.WF p) :
    ∀ p ∈ w'.pops, Population.WF p := by
  have := execute_pops hops h
  intro p hp
  obtain ⟨p0, h0, h1⟩ := forall₂_exists_left this hp
  have hw0 := hw p0 h0
  clear * - h1 hw0
  induction h1 with
  | refl => exact hw0
  | tail _ h ih => exact Population.popCall_wf h ih

/-! ### C52 -/

/-- `size` never changes -/
theorem popCalls_size {p p' : Population} (h : PopCalls R p p') : p'.size = p.size := by
  induction h with
  | refl => rfl
  | tail _ h ih =>
    rw [← ih]
    cases h with
    | createAttribute name values h =>
      obtain ⟨a, -, h⟩ := bind_eq_ok.1 h
      cases h
      rfl
    | update f h => exact (Population.update_eq_ok h).2.2.2.1
    | _ => rfl

/-- **C52** the full claim is false after an update that adds members: whatever the calls, the size of
a population is the number of its ids exactly as long as no member was added. -/
theorem C52_size_partial {p p' : Population} (hp : Population.WF p)
    (hs : p.size = p.ids.length) (h : PopCalls R p p') :
    p'.size = p'.ids.length ↔ ∀ i ∈ p'.ids, i ∈ p.ids := by
  have hn := (C51_history hp h).1
  have hsub := C51_members_never_leave h
  rw [popCalls_size h, hs]
  constructor
  · intro hl i hi
    have hsp : p.ids.Subperm p'.ids := List.subperm_of_subset hp.ids hsub
    exact (hsp.perm_of_length_le hl.ge).mem_iff.2 hi
  · intro hi
    exact ((List.perm_ext_iff_of_nodup hp.ids hn).2 fun i => ⟨hsub i, hi i⟩).length_eq

/-- a population with one attribute, and a frame adding the member "d" -/
def exNewMember : Frame := ⟨["AGE"], [⟨.str "d", [.num 20]⟩]⟩

/-- **C52** fails after an update adding a member: `size` stays 3 with 4 ids, and then neither an
attribute initialised from a generator nor a story can be created any more: the generator is asked
for 3 values for 4 members. -/
theorem C52_counterexample : ∃ p', exPop.update exNewMember = .ok p' ∧ p'.ids.length = 4 ∧
    p'.size = 3 ∧
    p'.createAttributeGen "CITY" (fun n => List.replicate n (.str "Brussels")) =
      .error .valueError ∧
    Act.raised? (createStory exEnv { name := "s", population := 0, idField := "ID" })
      { exWorld with pops := [p'] } = some .valueError := by
  refine ⟨⟨[.str "a", .str "b", .str "c", .str "d"], 3,
    [("AGE", ⟨[(.str "a", .num 30), (.str "b", .num 40), (.str "c", .num 50), (.str "d", .num 20)]⟩)],
    []⟩, ?_⟩
  decide +kernel

/-! ### C53 -/

/-- **C53** an update with distinct ids always succeeds; afterwards each updated id, known or new, has
its new value, and every other id the value it had: nothing disappears. -/
theorem C53_update {a : Attribute} (ha : OneValueEach a) {series : List (Val × Cell)}
    (hn : (series.map Prod.fst).Nodup) : ∃ a', a.update series = .ok a' ∧ OneValueEach a' ∧
    ∀ i c, Holds a' i c ↔ (i, c) ∈ series ∨ (i ∉ series.map Prod.fst ∧ Holds a i c) := by
  obtain ⟨a', h⟩ := a.update_total hn
  exact ⟨a', h, Attribute.update_oneValueEach ha h, Attribute.update_holds ha h⟩

/-- **C53** with a duplicated id, the update raises `ValueError`. -/
theorem C53_update_duplicates (a : Attribute) {series : List (Val × Cell)}
    (hn : ¬ (series.map Prod.fst).Nodup) : a.update series = .error .valueError := by
  rw [Attribute.update, if_pos hn]

/-- **C53** reading returns one value per requested id, in the order of the request. -/
theorem C53_get_values {a : Attribute} (ha : OneValueEach a) {l : List Val} {cs : List Cell} :
    a.getValues l = .ok cs ↔ List.Forall₂ (Holds a) l cs := Attribute.getValues_ok_iff ha

/-- **C53** reading raises `KeyError` exactly when some requested id is unknown. -/
theorem C53_unknown_id {a : Attribute} (ha : OneValueEach a) {l : List Val} :
    a.getValues l = .error .keyError ↔ ∃ i ∈ l, ¬ Knows a i := by
  constructor
  · intro h
    by_contra hc
    push Not at hc
    have : ∃ cs, List.Forall₂ (Holds a) l cs := by
      clear h
      induction l with
      | nil => exact ⟨[], .nil⟩
      | cons i l ih =>
        obtain ⟨c, hc0⟩ := hc i (by simp)
        obtain ⟨cs, hcs⟩ := ih fun j hj => hc j (by simp [hj])
        exact ⟨c :: cs, .cons hc0 hcs⟩
    obtain ⟨cs, hcs⟩ := this
    rw [(Attribute.getValues_ok_iff ha).2 hcs] at h
    cases h
  · rintro ⟨i, hi, hk⟩
    exact Attribute.getValues_unknown hi hk

theorem givenFor_nodup {series : List (Val × Cell)} (hn : (series.map Prod.fst).Nodup) (i : Val) :
    (∀ c, (i, c) ∈ series → (givenFor series i).getLast? = some c) ∧
    (i ∉ series.map Prod.fst → (givenFor series i).getLast? = none) := by
  induction series with
  | nil => simp [givenFor]
  | cons x series ih =>
    rw [List.map_cons, List.nodup_cons] at hn
    obtain ⟨ih1, ih2⟩ := ih hn.2
    have hc : givenFor (x :: series) i =
        if x.1 = i then x.2 :: givenFor series i else givenFor series i := by
      simp only [givenFor, List.filterMap_cons]
      split <;> split <;> simp_all
    constructor
    · intro c hm
      rcases List.mem_cons.1 hm with rfl | hm
      · rw [hc, if_pos rfl]
        have h0 := ih2 hn.1
        rw [List.getLast?_eq_none_iff] at h0
        simp [h0]
      · have : x.1 ≠ i := by
          rintro rfl
          exact hn.1 (List.mem_map.2 ⟨_, hm, rfl⟩)
        rw [hc, if_neg this]
        exact ih1 c hm
    · intro hm
      rw [List.map_cons, List.mem_cons, not_or] at hm
      rw [hc, if_neg (Ne.symm hm.1)]
      exact ih2 hm.2

/-- **C53** after any sequence of updates (each with distinct ids), the value of an id is the one given
by the last update that mentions it, or else the one it had at first. -/
theorem C53_history {a : Attribute} (ha : OneValueEach a) {us : List (List (Val × Cell))}
    (hn : ∀ u ∈ us, (u.map Prod.fst).Nodup) :
    ∃ a', us.foldlM Attribute.update a = .ok a' ∧ OneValueEach a' ∧
      ∀ i c₀, (∀ c, Holds a i c ↔ c₀ = some c) → ∀ c, Holds a' i c ↔ afterUpdates c₀ us i = some c := by
  induction us generalizing a with
  | nil => exact ⟨a, rfl, ha, fun i c₀ h => h⟩
  | cons u us ih =>
    obtain ⟨a1, h1, h2, h3⟩ := C53_update ha (hn u (by simp))
    obtain ⟨a', h4, h5, h6⟩ := ih h2 fun v hv => hn v (by simp [hv])
    refine ⟨a', ?_, h5, ?_⟩
    · rw [List.foldlM_cons, h1]
      exact h4
    · intro i c₀ hc
      rw [afterUpdates]
      apply h6
      intro c
      obtain ⟨g1, g2⟩ := givenFor_nodup (hn u (by simp)) i
      rw [h3]
      by_cases hm : i ∈ u.map Prod.fst
      · obtain ⟨⟨j, d⟩, hd, rfl⟩ := List.mem_map.1 hm
        rw [g1 d hd]
        simp only [hm, not_true, false_and, or_false, Option.some.injEq]
        constructor
        · intro hc'
          have := g1 c hc'
          rw [g1 d hd] at this
          exact Option.some.inj this
        · rintro rfl
          exact hd
      · rw [g2 hm]
        have : (i, c) ∉ u := fun hx => hm (List.mem_map.2 ⟨_, hx, rfl⟩)
        simp only [this, hm, not_false_iff, true_and, false_or]
        exact hc c

/-! ### C54 -/

/-- **C54** `add` adds to each listed member the sum of all the values given for it, and changes
nobody else; it succeeds as soon as all listed members are known and the values involved are
numbers. -/
theorem C54_add {a : Attribute} (ha : OneValueEach a) {l : List Val} {added : List Cell}
    (hl : l.length = added.length) (hk : ∀ i ∈ l, Knows a i) (hna : Val.na ∉ l)
    (hadd : ∀ c ∈ added, IsNum c) (hnum : ∀ i ∈ l, ∀ c, Holds a i c → IsNum c) :
    ∃ a', a.add l added = .ok a' ∧ OneValueEach a' ∧
      (∀ i, i ∉ l → ∀ c, Holds a' i c ↔ Holds a i c) ∧
      (∀ i ∈ l, ∀ x, Holds a i (.num x) →
        Holds a' i (.num (x + ((givenFor (l.zip added) i).map numIn).sum))) := by
  have hcontr := fun i => Attribute.contribution_ok (l := l.zip added)
    (fun x hx => hadd _ (List.of_mem_zip hx).2) i
  have hkeys : ∀ i, i ∈ Attribute.addKeys l ↔ i ∈ l := by
    intro i
    rw [Attribute.mem_addKeys]
    exact ⟨fun h => h.1, fun h => ⟨h, by rintro rfl; exact hna h⟩⟩
  let tot : Val → Rat := fun i => ((givenFor (l.zip added) i).map numIn).sum
  let a' : Attribute := ⟨a.table.map fun kv => if kv.1 ∈ l then (kv.1, .num (numIn kv.2 + tot kv.1)) else kv⟩
  have hok : a.add l added = .ok a' := by
    rw [Attribute.add_eq_ok]
    refine ⟨hl, ?_, ?_⟩
    · intro i hi
      obtain ⟨c, hc⟩ := hk i ((hkeys i).1 hi)
      exact List.mem_map.2 ⟨_, hc, rfl⟩
    · have : ∀ t : List (Val × Cell), (∀ x ∈ t, x ∈ a.table) → List.Forall₂ (fun kv kv' =>
          kv'.1 = kv.1 ∧ if kv.1 ∈ Attribute.addKeys l then
            ∃ q, Attribute.contribution (l.zip added) kv.1 = .ok q ∧
              Attribute.plusNum kv.2 q = .ok kv'.2
          else kv' = kv) t (t.map fun kv => if kv.1 ∈ l then (kv.1, .num (numIn kv.2 + tot kv.1)) else kv) := by
        intro t ht
        induction t with
        | nil => exact .nil
        | cons kv t ih =>
          refine .cons ?_ (ih fun x hx => ht x (by simp [hx]))
          by_cases hm : kv.1 ∈ l
          · obtain ⟨q, hq⟩ := hnum kv.1 hm kv.2 (ht kv (by simp))
            beta_reduce
            rw [if_pos hm, if_pos ((hkeys _).2 hm)]
            refine ⟨rfl, tot kv.1, hcontr kv.1, ?_⟩
            rw [hq]
            rfl
          · beta_reduce
            rw [if_neg hm, if_neg (fun h => hm ((hkeys _).1 h))]
            exact ⟨rfl, rfl⟩
      exact this a.table fun _ h => h
  refine ⟨a', hok, ?_, ?_, ?_⟩
  · show a'.ids.Nodup
    rw [Attribute.add_ids hok]
    exact ha
  · intro i hi c
    simp only [Holds, a', List.mem_map]
    constructor
    · rintro ⟨kv, hkv, he⟩
      split at he
      · next hm =>
        obtain ⟨rfl, -⟩ := Prod.mk.inj he
        exact absurd hm hi
      · rw [← he]
        exact hkv
    · intro hc
      exact ⟨(i, c), hc, by simp [hi]⟩
  · intro i hi x hx
    simp only [Holds, a', List.mem_map]
    exact ⟨_, hx, by simp [hi, numIn, tot]⟩

/-- **C54** an unknown id raises `KeyError`. -/
theorem C54_unknown_id {a : Attribute} {l : List Val} {added : List Cell}
    (hl : l.length = added.length) {i : Val} (hi : i ∈ l) (hna : i ≠ .na) (hk : ¬ Knows a i) :
    a.add l added = .error .keyError := by
  rw [Attribute.add, if_neg (not_not.2 hl)]
  simp only
  rw [if_pos]
  refine List.any_eq_true.2 ⟨i, Attribute.mem_addKeys.2 ⟨hi, hna⟩, ?_⟩
  have : i ∉ a.ids := by
    intro hm
    obtain ⟨x, hx, rfl⟩ := List.mem_map.1 hm
    exact hk ⟨x.2, hx⟩
  simpa using this

/-- **C54** subtracting what was added restores the attribute. -/
theorem C54_add_subtract {a b : Attribute} {l : List Val} {added minus : List Cell}
    (hm : List.Forall₂ Opposite added minus) (h : a.add l added = .ok b) :
    b.add l minus = .ok a := by
  refine Attribute.add_inverse (mapM_ok_iff.2 (hm.imp ?_)) h
  rintro c d (⟨q, rfl, rfl⟩ | ⟨rfl, rfl⟩) <;> rfl

/-! ### C55 -/

theorem mem_zip_cells {rows : List Row} {cells : List Cell} {f : Frame} {name : String}
    (hc : cells = rows.map fun r => cell f r name) {i : Val} {c : Cell} :
    (i, c) ∈ (rows.map (·.idx)).zip cells ↔ ∃ r ∈ rows, r.idx = i ∧ c = cell f r name := by
  subst hc
  rw [List.zip_map', List.mem_map]
  constructor
  · rintro ⟨r, hr, he⟩
    obtain ⟨rfl, rfl⟩ := Prod.mk.inj he
    exact ⟨r, hr, rfl, rfl⟩
  · rintro ⟨r, hr, rfl, rfl⟩
    exact ⟨r, hr, rfl⟩

/-- **C55** an update whose columns are not exactly the attributes raises `ValueError`. -/
theorem C55_refused (p : Population) (f : Frame)
    (hc : ¬ ∀ c, c ∈ f.cols ↔ c ∈ p.attributes.map Prod.fst) :
    p.update f = .error .valueError := by
  rw [Population.update, if_pos]
  intro h
  exact hc fun c => ⟨h.1 c, h.2 c⟩

/-- **C55** otherwise it succeeds; for each id of the frame, the values of its last row are readable in
every attribute; the other members are unchanged, and so are the set of attributes and the
relationships. -/
theorem C55_update {p : Population} (hp : Population.WF p) {f : Frame} (hr : Rect f)
    (hn : f.cols.Nodup) (hc : ∀ c, c ∈ f.cols ↔ c ∈ p.attributes.map Prod.fst) :
    ∃ p', p.update f = .ok p' ∧ p'.attributes.map Prod.fst = p.attributes.map Prod.fst ∧
      p'.relationships = p.relationships ∧
      ∀ name a, attributeOf p name a → ∃ a', attributeOf p' name a' ∧
        ∀ i c, Holds a' i c ↔
          (∃ r, LastRow f i r ∧ c = cell f r name) ∨ (i ∉ f.index ∧ Holds a i c) := by
  have hkl := Population.keepLast_nodup f.rows
  obtain ⟨atts, hatts⟩ := Population.updateAttributes_total (f := f) hkl
    (l := f.cols.zipIdx) (atts := p.attributes) (by
      rintro ⟨name, i⟩ hx
      exact (hc name).1 (List.fst_mem_of_mem_zipIdx hx)) (by
      rintro ⟨name, i⟩ hx r hr'
      have := (List.mem_zipIdx_iff_getElem?.1 hx)
      have hi : i < f.cols.length := (List.getElem?_eq_some_iff.1 this).1
      rw [hr r ((Population.keepLast_sublist _).subset hr')]
      exact hi)
  have hok : p.update f = .ok { p with
      ids := indexUnion p.ids (indexDifference ((Population.keepLast f.rows).map (·.idx)) p.ids),
      attributes := atts } := by
    rw [Population.update, if_neg (not_not.2 ⟨fun c => (hc c).1, fun c => (hc c).2⟩)]
    simp only [hatts, bind_ok]
  refine ⟨_, hok, (Population.updateAttributes_inv hatts).1, rfl, ?_⟩
  intro name a ha
  have hname : name ∈ f.cols := (hc name).2 (List.mem_map.2 ⟨_, ha, rfl⟩)
  obtain ⟨i, hpi, -⟩ := Frame.pos_of_nodup hn hname
  have hmem : (name, i) ∈ f.cols.zipIdx := by
    have h1 : i ∈ f.positions name := by
      rw [Frame.pos] at hpi
      split at hpi <;> simp_all
    rw [Frame.positions, List.mem_map] at h1
    obtain ⟨⟨n, j⟩, h2, rfl⟩ := h1
    rw [List.mem_filter] at h2
    obtain ⟨h3, h4⟩ := h2
    simp only [decide_eq_true_eq] at h4
    rw [← h4]
    exact h3
  obtain ⟨b, b', cells, g1, g2, g3, g4⟩ :=
    (Population.updateAttributes_get hatts (by simpa using hn) name).2 i hmem
  obtain rfl : b = a := by
    rw [Dict.get?_of_mem hp.names ha] at g1
    exact (Option.some.inj g1).symm
  refine ⟨b', Dict.get?_mem g2, ?_⟩
  have hcells : cells = (Population.keepLast f.rows).map fun r => cell f r name := by
    have := mapM_ok_iff.1 g3
    clear * - this hpi
    generalize Population.keepLast f.rows = rows at this
    induction this with
    | nil => rfl
    | cons h _ ih =>
      rw [List.map_cons, ← ih]
      congr 1
      exact (Frame.cell_of_pos hpi h).symm
  intro j c
  rw [Attribute.update_holds (hp.values _ ha) g4, mem_zip_cells hcells]
  have hidx : j ∉ (((Population.keepLast f.rows).map (·.idx)).zip cells).map Prod.fst ↔
      j ∉ f.index := by
    rw [hcells, List.zip_map', List.map_map]
    exact not_congr (Population.keepLast_idx f.rows j)
  rw [hidx]
  apply or_congr _ Iff.rfl
  constructor
  · rintro ⟨r, hr', rfl, rfl⟩
    obtain ⟨pre, post, h1, h2⟩ := Population.mem_keepLast.1 hr'
    exact ⟨r, ⟨pre, post, h1, rfl, h2⟩, rfl⟩
  · rintro ⟨r, ⟨pre, post, h1, rfl, h2⟩, rfl⟩
    exact ⟨r, Population.mem_keepLast.2 ⟨pre, post, h1, h2⟩, rfl, rfl⟩

/-! ### The operations -/

theorem idColumn_eq {data : Frame} {field : String} (hr : Rect data) (hn : data.cols.Nodup)
    (hf : field ∈ data.cols) (hs : ∀ r ∈ data.rows, ∃ v, cell data r field = .scalar v) :
    Ops.idColumn data field = .ok (data.rows.map fun r => idIn (cell data r field)) := by
  rw [Ops.idColumn, Frame.col_total hr hn hf, bind_ok]
  have : ∀ rows : List Row, (∀ r ∈ rows, ∃ v, cell data r field = .scalar v) →
      (rows.map fun r => cell data r field).mapM Cell.asVal =
        .ok (rows.map fun r => idIn (cell data r field)) := by
    intro rows hrows
    rw [mapM_ok_iff, List.forall₂_map_left_iff, List.forall₂_map_right_iff, List.forall₂_same]
    intro r hr'
    obtain ⟨v, hv⟩ := hrows r hr'
    rw [hv]
    rfl
  exact this data.rows hs

/-- **C53** the operation `attribute.ops.update`: in the attribute, each member named by a row (distinct
members) has the value of that row, the others are unchanged; the rest of the world is unchanged and so
are the story data. -/
theorem C53_operation {pop : Nat} {name idField copyFrom : String} {data : Frame} {w : World σ γ}
    {p : Population} {a : Attribute} (hp : w.pops[pop]? = some p) (hwf : Population.WF p)
    (ha : attributeOf p name a) (hr : Rect data) (hn : data.cols.Nodup) (hi : idField ∈ data.cols)
    (hc : copyFrom ∈ data.cols) (hs : ∀ r ∈ data.rows, ∃ v, cell data r idField = .scalar v)
    (hd : (data.rows.map fun r => idIn (cell data r idField)).Nodup) :
    ∃ p' a', Ops.attrUpdate pop name idField copyFrom data w =
        .ok (data, []) { w with pops := w.pops.set pop p' } ∧
      p' = { p with attributes := p.attributes.set name a' } ∧
      ∀ i c, Holds a' i c ↔
        (∃ r ∈ data.rows, idIn (cell data r idField) = i ∧ c = cell data r copyFrom) ∨
        ((∀ r ∈ data.rows, idIn (cell data r idField) ≠ i) ∧ Holds a i c) := by
  have hget := Dict.get?_of_mem hwf.names ha
  have hset : p.attributes.set name a = p.attributes := by
    clear * - hget
    generalize p.attributes = d at hget
    induction d with
    | nil => simp at hget
    | cons x d ih =>
      obtain ⟨k, v⟩ := x
      rw [Dict.get?_cons] at hget
      rw [Dict.set]
      split at hget
      · next h => cases hget; rw [if_pos h, h]
      · next h => rw [if_neg h, ih hget]
  by_cases hrows : data.rows = []
  · refine ⟨p, a, ?_, by rw [hset], ?_⟩
    · rw [Ops.attrUpdate, sideEffect_eq_ok, if_pos hrows]
      refine ⟨?_, rfl⟩
      have : w.pops.set pop p = w.pops := set_same hp
      rw [this]
      rfl
    · simp [hrows]
  · obtain ⟨a', h1, -, h3⟩ := C53_update (hwf.values _ ha) (series := (data.rows.map fun r =>
      idIn (cell data r idField)).zip (data.rows.map fun r => cell data r copyFrom))
      (hd.sublist (zip_fst_sublist _ _))
    refine ⟨_, a', ?_, rfl, ?_⟩
    · rw [Ops.attrUpdate, sideEffect_eq_ok, if_neg hrows]
      refine ⟨?_, rfl⟩
      refine Act.bind_eq_ok.2 ⟨_, w, Act.ofPy_eq_ok.2 ⟨Frame.col_total hr hn hc, rfl⟩, ?_⟩
      refine Act.bind_eq_ok.2 ⟨_, w, Act.ofPy_eq_ok.2 ⟨idColumn_eq hr hn hi hs, rfl⟩, ?_⟩
      exact onAttribute_eq_ok.2 ⟨p, a, a', hp, hget, h1, rfl⟩
    · intro i c
      rw [h3]
      have e1 : (i, c) ∈ (data.rows.map fun r => idIn (cell data r idField)).zip
          (data.rows.map fun r => cell data r copyFrom) ↔
          ∃ r ∈ data.rows, idIn (cell data r idField) = i ∧ c = cell data r copyFrom := by
        rw [List.zip_map', List.mem_map]
        constructor
        · rintro ⟨r, hr', he⟩
          obtain ⟨rfl, rfl⟩ := Prod.mk.inj he
          exact ⟨r, hr', rfl, rfl⟩
        · rintro ⟨r, hr', rfl, rfl⟩
          exact ⟨r, hr', rfl⟩
      rw [e1, List.zip_map', List.map_map]
      simp [Function.comp_def]

theorem dict_set_same {κ ν : Type} [DecidableEq κ] {d : Dict κ ν} {k : κ} {v : ν}
    (h : d.get? k = some v) : d.set k v = d := by
  induction d with
  | nil => simp at h
  | cons x d ih =>
    obtain ⟨k', v'⟩ := x
    rw [Dict.get?_cons] at h
    rw [Dict.set]
    split at h
    · next hk => cases h; rw [if_pos hk, hk]
    · next hk => rw [if_neg hk, ih h]

theorem givenFor_rows {β : Type} (rows : List β) (f : β → Val) (g : β → Cell) (i : Val) :
    givenFor ((rows.map f).zip (rows.map g)) i =
      (rows.filter fun r => decide (f r = i)).map g := by
  rw [givenFor, List.zip_map', List.filterMap_map]
  induction rows with
  | nil => rfl
  | cons r rows ih =>
    rw [List.filterMap_cons, List.filter_cons, ih]
    by_cases h : f r = i <;> simp [h]

/-- **C54** the operations `attribute.ops.add` and `subtract`: the value of each member named by rows
changes by the total of the values of these rows; the values of the others, the rest of the world and the
story data are unchanged. -/
theorem C54_operation {pop : Nat} {name idField field : String} {subtract : Bool} {data : Frame}
    {w : World σ γ} {p : Population} {a : Attribute} (hp : w.pops[pop]? = some p)
    (hwf : Population.WF p) (ha : attributeOf p name a) (hr : Rect data) (hn : data.cols.Nodup)
    (hi : idField ∈ data.cols) (hc : field ∈ data.cols)
    (hs : ∀ r ∈ data.rows, ∃ v, cell data r idField = .scalar v ∧ v ≠ .na ∧
      ∃ x : Rat, Holds a v (.num x))
    (hnum : ∀ r ∈ data.rows, IsNum (cell data r field)) :
    ∃ p' a', Ops.attrAdd pop name idField field subtract data w =
        .ok (data, []) { w with pops := w.pops.set pop p' } ∧
      p' = { p with attributes := p.attributes.set name a' } ∧
      (∀ i, (∀ r ∈ data.rows, idIn (cell data r idField) ≠ i) → ∀ c, Holds a' i c ↔ Holds a i c) ∧
      ∀ r ∈ data.rows, ∀ x : Rat, Holds a (idIn (cell data r idField)) (.num x) →
        Holds a' (idIn (cell data r idField)) (.num (x + (if subtract then -1 else 1) *
          ((data.rows.filter fun y => decide (idIn (cell data y idField) =
            idIn (cell data r idField))).map fun y => numIn (cell data y field)).sum)) := by
  have hget := Dict.get?_of_mem hwf.names ha
  have hone := hwf.values _ ha
  by_cases hrows : data.rows = []
  · refine ⟨p, a, ?_, by rw [dict_set_same hget], fun _ _ _ => Iff.rfl, by simp [hrows]⟩
    rw [Ops.attrAdd, sideEffect_eq_ok, if_pos hrows]
    refine ⟨?_, rfl⟩
    have : w.pops.set pop p = w.pops := set_same hp
    rw [this]
    rfl
  let ids := data.rows.map fun r => idIn (cell data r idField)
  let signed : Row → Rat := fun r => (if subtract then -1 else 1) * numIn (cell data r field)
  have hval : Ops.addedValues subtract (data.rows.map fun r => cell data r field) =
      .ok (data.rows.map fun r => .num (signed r)) := by
    cases subtract with
    | false =>
      simp only [Ops.addedValues, Bool.false_eq_true, if_false, Except.ok.injEq]
      refine List.map_congr_left fun r hr' => ?_
      obtain ⟨q, hq⟩ := hnum r hr'
      simp [signed, hq, numIn]
    | true =>
      simp only [Ops.addedValues, if_true]
      rw [mapM_ok_iff, List.forall₂_map_left_iff, List.forall₂_map_right_iff, List.forall₂_same]
      intro r hr'
      obtain ⟨q, hq⟩ := hnum r hr'
      simp [signed, hq, numIn, Ops.negate]
  have hin : ∀ r ∈ data.rows, ∃ v, cell data r idField = .scalar v := fun r hr' => by
    obtain ⟨v, hv, -⟩ := hs r hr'
    exact ⟨v, hv⟩
  have hmem : ∀ i ∈ ids, i ≠ .na ∧ ∃ x : Rat, Holds a i (.num x) := by
    intro i hi'
    obtain ⟨r, hr', rfl⟩ := List.mem_map.1 hi'
    obtain ⟨v, hv, h1, h2⟩ := hs r hr'
    rw [hv]
    exact ⟨h1, h2⟩
  obtain ⟨a', e1, -, e3, e4⟩ := C54_add hone (l := ids) (added := data.rows.map fun r => .num (signed r))
    (by simp [ids]) (fun i hi' => by obtain ⟨-, x, hx⟩ := hmem i hi'; exact ⟨_, hx⟩)
    (fun h => (hmem _ h).1 rfl)
    (by
      intro c hc'
      obtain ⟨r, -, rfl⟩ := List.mem_map.1 hc'
      exact ⟨_, rfl⟩)
    (by
      intro i hi' c hc'
      obtain ⟨-, x, hx⟩ := hmem i hi'
      have k1 := Dict.get?_of_mem (d := a.table) hone hc'
      have k2 := Dict.get?_of_mem (d := a.table) hone hx
      rw [k1] at k2
      cases k2
      exact ⟨x, rfl⟩)
  refine ⟨_, a', ?_, rfl, ?_, ?_⟩
  · rw [Ops.attrAdd, sideEffect_eq_ok, if_neg hrows]
    refine ⟨?_, rfl⟩
    refine Act.bind_eq_ok.2 ⟨_, w, Act.ofPy_eq_ok.2 ⟨Frame.col_total hr hn hc, rfl⟩, ?_⟩
    refine Act.bind_eq_ok.2 ⟨_, w, Act.ofPy_eq_ok.2 ⟨hval, rfl⟩, ?_⟩
    refine Act.bind_eq_ok.2 ⟨_, w, Act.ofPy_eq_ok.2 ⟨idColumn_eq hr hn hi hin, rfl⟩, ?_⟩
    exact onAttribute_eq_ok.2 ⟨p, a, a', hp, hget, e1, rfl⟩
  · intro i hi' c
    refine e3 i ?_ c
    intro hm
    obtain ⟨r, hr', he⟩ := List.mem_map.1 hm
    exact hi' r hr' he
  · intro r hr' x hx
    have := e4 _ (List.mem_map.2 ⟨r, hr', rfl⟩) x hx
    rw [givenFor_rows, List.map_map] at this
    have hsum : ∀ l : List Row, (l.map (numIn ∘ fun r => Cell.num (signed r))).sum =
        (if subtract then -1 else 1) * (l.map fun y => numIn (cell data y field)).sum := by
      intro l
      induction l with
      | nil => simp
      | cons y l ih =>
        rw [List.map_cons, List.sum_cons, ih, List.map_cons, List.sum_cons, mul_add]
        rfl
    rwa [hsum] at this

/-- **C54** the operation `subtract` on the same rows undoes the operation `add`. -/
theorem C54_operations_cancel {pop : Nat} {name idField field : String} {data out : Frame}
    {logs : Logs} {w w1 : World σ γ} (hnum : ∀ r ∈ data.rows, IsNum (cell data r field))
    (h : Ops.attrAdd pop name idField field false data w = .ok (out, logs) w1) :
    out = data ∧ logs = [] ∧
    Ops.attrAdd pop name idField field true data w1 = .ok (data, []) w := by
  obtain ⟨h2, h'⟩ := sideEffect_eq_ok.1 h
  clear h
  cases h'
  have h := h2
  clear h2
  refine ⟨rfl, rfl, ?_⟩
  rw [Ops.attrAdd, sideEffect_eq_ok]
  refine ⟨?_, rfl⟩
  split at h
  · next hrows =>
    obtain ⟨-, rfl⟩ := Act.pure_eq_ok.1 h
    rw [if_pos hrows]
    rfl
  next hrows =>
  rw [if_neg hrows]
  obtain ⟨values, w2, g1, h⟩ := Act.bind_eq_ok.1 h
  obtain ⟨values', w3, g2, h⟩ := Act.bind_eq_ok.1 h
  obtain ⟨ids, w4, g3, h⟩ := Act.bind_eq_ok.1 h
  obtain ⟨e1, rfl⟩ := Act.ofPy_eq_ok.1 g1
  obtain ⟨e2, rfl⟩ := Act.ofPy_eq_ok.1 g2
  obtain ⟨e3, rfl⟩ := Act.ofPy_eq_ok.1 g3
  cases e2
  obtain ⟨p, a, a', k1, k2, k3, rfl⟩ := onAttribute_eq_ok.1 h
  have hneg : ∃ minus, values.mapM Ops.negate = .ok minus := by
    rw [Frame.col_eq_map e1]
    refine ⟨data.rows.map fun r => .num (- numIn (cell data r field)), ?_⟩
    rw [mapM_ok_iff, List.forall₂_map_left_iff, List.forall₂_map_right_iff, List.forall₂_same]
    intro r hr'
    obtain ⟨q, hq⟩ := hnum r hr'
    rw [hq]
    rfl
  obtain ⟨minus, hm⟩ := hneg
  refine Act.bind_eq_ok.2 ⟨values, _, Act.ofPy_eq_ok.2 ⟨e1, rfl⟩, ?_⟩
  refine Act.bind_eq_ok.2 ⟨minus, _, Act.ofPy_eq_ok.2 ⟨hm, rfl⟩, ?_⟩
  refine Act.bind_eq_ok.2 ⟨ids, _, Act.ofPy_eq_ok.2 ⟨e3, rfl⟩, ?_⟩
  refine onAttribute_eq_ok.2 ⟨_, a', a, List.getElem?_set_self (List.getElem?_eq_some_iff.1 k1).1,
    ?_, Attribute.add_inverse hm k3, ?_⟩
  · rw [Dict.get?_set, if_pos rfl]
  · have hset : (p.attributes.set name a').set name a = p.attributes := by
      clear * - k2
      generalize p.attributes = d at k2
      induction d with
      | nil => simp at k2
      | cons x d ih =>
        obtain ⟨k, v⟩ := x
        rw [Dict.get?_cons] at k2
        rw [Dict.set]
        split at k2
        · next h => cases k2; rw [if_pos h, Dict.set, if_pos rfl, h]
        · next h => rw [if_neg h, Dict.set, if_neg h, ih k2]
    have hp2 : w.pops.set pop p = w.pops := set_same k1
    simp only [hset, List.set_set]
    rw [hp2]

/-- **C55** the operation `population.ops.update` changes nothing when it raises. -/
theorem C55_operation_refused {pop : Nat} {idField : String} {copy : Dict String String}
    {data : Frame} {e : Err} {w w' : World σ γ}
    (h : Ops.popUpdate pop idField copy data w = .error e w') : w' = w := by
  rw [Ops.popUpdate, Ops.sideEffect] at h
  cases h1 : Ops.updateFrame idField copy data with
  | error e' =>
    have : (Act.ofPy (Ops.updateFrame idField copy data) : Act (World σ γ) Frame) w = .error e' w :=
      Act.ofPy_error h1 w
    simp only [bind_assoc] at h
    rw [Act.bind_err this] at h
    cases h
    rfl
  | ok f =>
    have : (Act.ofPy (Ops.updateFrame idField copy data) : Act (World σ γ) Frame) w = .ok f w :=
      Act.ofPy_ok h1 w
    simp only [bind_assoc] at h
    rw [Act.bind_ok this] at h
    cases hp : w.pops[pop]? with
    | none =>
      have : (getPop pop : Act (World σ γ) Population) w = .error .attributeError w := by
        rw [getPop, fetch, hp]
      rw [Act.bind_err this] at h
      cases h
      rfl
    | some p =>
      have : (getPop pop : Act (World σ γ) Population) w = .ok p w := by
        rw [getPop, fetch, hp]
      rw [Act.bind_ok this] at h
      cases h2 : p.update f with
      | error e' =>
        rw [Act.bind_err (Act.ofPy_error h2 w)] at h
        cases h
        rfl
      | ok p' =>
        rw [Act.bind_ok (Act.ofPy_ok h2 w)] at h
        cases h

/-- **C55** the operation `population.ops.update` updates the population with the frame that holds, for
each row of the story data, the id and the fields named by the operation. -/
theorem C55_operation {pop : Nat} {idField : String} {copy : Dict String String}
    {data out : Frame} {logs : Logs} {w w' : World σ γ}
    (h : Ops.popUpdate pop idField copy data w = .ok (out, logs) w') :
    out = data ∧ logs = [] ∧ ∃ p p' f, w.pops[pop]? = some p ∧ p.update f = .ok p' ∧
      w' = { w with pops := w.pops.set pop p' } ∧ f.cols = copy.map Prod.fst ∧
      f.rows = data.rows.map fun r =>
        ⟨idIn (cell data r idField), copy.map fun c => cell data r c.2⟩ := by
  obtain ⟨h2, h'⟩ := sideEffect_eq_ok.1 h
  clear h
  cases h'
  have h := h2
  clear h2
  refine ⟨rfl, rfl, ?_⟩
  obtain ⟨f, w1, g1, h⟩ := Act.bind_eq_ok.1 h
  obtain ⟨p, w2, g2, h⟩ := Act.bind_eq_ok.1 h
  obtain ⟨p', w3, g3, h⟩ := Act.bind_eq_ok.1 h
  obtain ⟨e1, rfl⟩ := Act.ofPy_eq_ok.1 g1
  obtain ⟨e2, rfl⟩ := getPop_eq_ok.1 g2
  obtain ⟨e3, rfl⟩ := Act.ofPy_eq_ok.1 g3
  refine ⟨p, p', f, e2, e3, setPop_eq_ok.1 h, ?_⟩
  rw [Ops.updateFrame] at e1
  obtain ⟨ids, k1, e1⟩ := bind_eq_ok.1 e1
  obtain ⟨cols, k2, e1⟩ := bind_eq_ok.1 e1
  cases e1
  refine ⟨rfl, ?_⟩
  have hids : ids = data.rows.map fun r => idIn (cell data r idField) := by
    rw [Ops.idColumn] at k1
    obtain ⟨cs, k3, k1⟩ := bind_eq_ok.1 k1
    rw [Frame.col_eq_map k3, mapM_ok_iff, List.forall₂_map_left_iff] at k1
    clear * - k1
    generalize data.rows = rows at k1
    induction k1 with
    | nil => rfl
    | @cons r i rows ids h _ ih =>
      rw [List.map_cons, ← ih]
      congr 1
      cases hc : cell data r idField with
      | list vs => rw [hc] at h; cases h
      | scalar v => rw [hc] at h; cases h; rfl
  have hcols : cols = copy.map fun c => data.rows.map fun r => cell data r c.2 := by
    have k4 := mapM_ok_iff.1 k2
    clear * - k4
    induction k4 with
    | nil => rfl
    | cons h _ ih => rw [List.map_cons, ← ih, Frame.col_eq_map h]
  rw [hids, hcols]
  refine List.ext_getElem (by simp) fun k hk1 hk2 => ?_
  simp only [List.getElem_map, List.getElem_zipIdx, List.map_map]
  congr 1
  apply List.map_congr_left
  intro c _
  rw [List.length_map] at hk2
  simp [hk2]

/-! ### Examples -/

/-- a population of three members and a history: a new attribute, an update that adds "d" and changes
"b" twice, an addition -/
def exPop2 : Population where
  ids := [.str "a", .str "b", .str "c", .str "d"]
  size := 3
  attributes := [("AGE", ⟨[(.str "a", .num 30), (.str "b", .num 42), (.str "c", .num 50),
    (.str "d", .num 20)]⟩)]
  relationships := []

def exInserted : Frame := ⟨["AGE"], [⟨.str "b", [.num 41]⟩, ⟨.str "d", [.num 20]⟩,
  ⟨.str "b", [.num 42]⟩]⟩

/-- the hypotheses of `C51_history`, `C52_size_partial` and `C55_update` hold of a population with an
attribute and of an update with duplicates -/
example : exPop.update exInserted = .ok exPop2 := by decide +kernel

example : Population.WF exPop := ⟨by decide +kernel, by decide +kernel, by
  simp [exPop, OneValueEach]⟩

example : Rect exInserted ∧ exInserted.cols.Nodup ∧
    ∀ c, c ∈ exInserted.cols ↔ c ∈ exPop.attributes.map Prod.fst := by
  refine ⟨by simp [Rect, exInserted], by decide, by simp [exInserted, exPop]⟩

example : PopCalls Rng.counter exPop exPop2 := .single (.update exInserted (by decide +kernel))

/-- the attribute AGE of `exPop` -/
def exAge : Attribute := ⟨[(.str "a", .num 30), (.str "b", .num 40), (.str "c", .num 50)]⟩

/-- `C53_update`: a known and a new member -/
example : exAge.update [(.str "b", .num 1), (.str "aa", .num 2)] =
    .ok ⟨[(.str "a", .num 30), (.str "aa", .num 2), (.str "b", .num 1), (.str "c", .num 50)]⟩ := by
  decide +kernel

/-- `C54_add`: contributions to the same member pile up -/
example : exAge.add [.str "b", .str "a", .str "b"] [.num 1, .num 5, .num 2] =
    .ok ⟨[(.str "a", .num 35), (.str "b", .num 43), (.str "c", .num 50)]⟩ := by
  decide +kernel

/-- `C54_operations_cancel`, `C53_operation`: story data of two rows -/
def exPayments : Frame := ⟨["PAYER", "AMOUNT"],
  [⟨.str "a", [.str "b", .num 1]⟩, ⟨.str "c", [.str "a", .num 5]⟩]⟩

example : ((Act.world? (Ops.attrAdd 0 "AGE" "PAYER" "AMOUNT" false exPayments) exWorld).map
    World.pops) = some [{ exPop with attributes := [("AGE", ⟨[(.str "a", .num 35),
      (.str "b", .num 41), (.str "c", .num 50)]⟩)] }] := by decide +kernel

/-- `C54_operation`: its hypotheses hold of these rows, and the operation `subtract` takes them away -/
example : Rect exPayments ∧ exPayments.cols.Nodup ∧ attributeOf exPop "AGE" exAge ∧
    (∀ r ∈ exPayments.rows, ∃ v, cell exPayments r "PAYER" = .scalar v ∧ v ≠ .na ∧
      ∃ x : Rat, Holds exAge v (.num x)) ∧
    ∀ r ∈ exPayments.rows, IsNum (cell exPayments r "AMOUNT") := by
  refine ⟨by simp [Rect, exPayments], by decide, by simp [attributeOf, exPop, exAge], ?_, ?_⟩
  · simp only [exPayments, List.forall_mem_cons, List.not_mem_nil, false_imp_iff, implies_true, and_true]
    exact ⟨⟨.str "b", by decide +kernel, by decide, 40, by simp [Holds, exAge]⟩,
      ⟨.str "a", by decide +kernel, by decide, 30, by simp [Holds, exAge]⟩⟩
  · simp only [exPayments, List.forall_mem_cons, List.not_mem_nil, false_imp_iff, implies_true, and_true]
    exact ⟨⟨1, by decide +kernel⟩, ⟨5, by decide +kernel⟩⟩

example : ((Act.world? (Ops.attrAdd 0 "AGE" "PAYER" "AMOUNT" true exPayments) exWorld).map
    World.pops) = some [{ exPop with attributes := [("AGE", ⟨[(.str "a", .num 25),
      (.str "b", .num 39), (.str "c", .num 50)]⟩)] }] := by decide +kernel

example : ((Act.world? (Ops.attrUpdate 0 "AGE" "PAYER" "AMOUNT" exPayments) exWorld).map
    World.pops) = some [{ exPop with attributes := [("AGE", ⟨[(.str "a", .num 5),
      (.str "b", .num 1), (.str "c", .num 50)]⟩)] }] := by decide +kernel

example : ((Act.world? (Ops.popUpdate 0 "PAYER" [("AGE", "AMOUNT")] exPayments) exWorld).map
    World.pops) = some [{ exPop with attributes := [("AGE", ⟨[(.str "a", .num 5),
      (.str "b", .num 1), (.str "c", .num 50)]⟩)] }] := by decide +kernel

example : (Act.raised? (Ops.popUpdate 0 "PAYER" [("CITY", "AMOUNT")] exPayments) exWorld) =
    some .valueError := by decide +kernel

end Trumania
