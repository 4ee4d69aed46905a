import Verif.Spec.Story
import Verif.Proofs.Act
import Verif.Proofs.Relationship
import Verif.Proofs.Select

/-! Helper lemmas on the methods of stories. -/

namespace Trumania
namespace Story
open Spec
variable {σ γ : Type}

theorem timerOf_eq (s : Story σ) (id : Val) : timerOf s id = (s.row? id).map (·.remaining) := rfl
theorem stateOf_eq (s : Story σ) (id : Val) : stateOf s id = (s.row? id).map (·.state) := rfl

theorem row?_id {s : Story σ} {id : Val} {r : TimerRow} (h : s.row? id = some r) : r.id = id := by
  have := List.find?_some h
  simpa using this

theorem row?_mem {s : Story σ} {id : Val} {r : TimerRow} (h : s.row? id = some r) :
    r ∈ s.timer := List.mem_of_find?_eq_some h

theorem row?_isSome {s : Story σ} {id : Val} : (s.row? id).isSome ↔ id ∈ s.ids := by
  simp only [row?, List.find?_isSome, ids, List.mem_map, decide_eq_true_eq]

theorem exists_row? {s : Story σ} {id : Val} (h : id ∈ s.ids) : ∃ r, s.row? id = some r :=
  Option.isSome_iff_exists.1 (row?_isSome.2 h)

theorem row?_eq_none {s : Story σ} {id : Val} : s.row? id = none ↔ id ∉ s.ids := by
  rw [← row?_isSome]; cases s.row? id <;> simp

theorem find?_nodup {l : List TimerRow} (hnd : (l.map (·.id)).Nodup) {r : TimerRow} (h : r ∈ l) :
    l.find? (fun x => decide (x.id = r.id)) = some r := by
  induction l with
  | nil => simp at h
  | cons a l ih =>
    simp only [List.map_cons, List.nodup_cons] at hnd
    rw [List.find?_cons]
    rcases List.mem_cons.1 h with rfl | h
    · simp
    · have : a.id ≠ r.id := fun e => hnd.1 (e ▸ List.mem_map_of_mem h)
      simp [this, ih hnd.2 h]

theorem row?_of_mem {s : Story σ} (hnd : s.ids.Nodup) {r : TimerRow} (h : r ∈ s.timer) :
    s.row? r.id = some r := find?_nodup hnd h

/-- a change of the table row by row -/
theorem find?_map_rows {l : List TimerRow} {f : TimerRow → TimerRow} (hf : ∀ r, (f r).id = r.id)
    (id : Val) : (l.map f).find? (fun r => decide (r.id = id)) =
      (l.find? (fun r => decide (r.id = id))).map f := by
  induction l with
  | nil => rfl
  | cons a l ih =>
    rw [List.map_cons, List.find?_cons, List.find?_cons, hf a]
    by_cases h : a.id = id
    · simp [h]
    · simp [h, ih]

theorem row?_map {s s' : Story σ} {f : TimerRow → TimerRow} (hf : ∀ r, (f r).id = r.id)
    (h : s'.timer = s.timer.map f) (id : Val) : s'.row? id = (s.row? id).map f := by
  rw [row?, h, find?_map_rows hf]; rfl

theorem ids_map {s s' : Story σ} {f : TimerRow → TimerRow} (hf : ∀ r, (f r).id = r.id)
    (h : s'.timer = s.timer.map f) : s'.ids = s.ids := by
  simp [ids, h, Function.comp_def, hf]

/-! ### Active members -/

theorem mem_activeIds {s : Story σ} (hnd : s.ids.Nodup) {id : Val} :
    id ∈ s.activeIds ↔ timerOf s id = some (some 0) := by
  simp only [activeIds, List.mem_map, List.mem_filter, decide_eq_true_eq]
  constructor
  · rintro ⟨r, ⟨hr, h0⟩, rfl⟩
    rw [timerOf_eq, row?_of_mem hnd hr, Option.map_some, h0]
  · intro h
    rw [timerOf_eq, Option.map_eq_some_iff] at h
    obtain ⟨r, hr, h0⟩ := h
    exact ⟨r, ⟨row?_mem hr, h0⟩, row?_id hr⟩

theorem mem_inactiveIds {s : Story σ} (hnd : s.ids.Nodup) {id : Val} :
    id ∈ s.inactiveIds ↔ id ∈ s.ids ∧ timerOf s id ≠ some (some 0) := by
  simp only [inactiveIds, List.mem_map, List.mem_filter, Bool.not_eq_true', decide_eq_false_iff_not]
  constructor
  · rintro ⟨r, ⟨hr, h0⟩, rfl⟩
    refine ⟨List.mem_map_of_mem hr, ?_⟩
    rw [timerOf_eq, row?_of_mem hnd hr, Option.map_some]
    simpa using h0
  · rintro ⟨hm, h⟩
    obtain ⟨r, hr⟩ := exists_row? hm
    rw [timerOf_eq, hr, Option.map_some] at h
    exact ⟨r, ⟨row?_mem hr, by simpa using h⟩, row?_id hr⟩

theorem actingRows_eq (s : Story σ) :
    actingRows s = s.activeIds.map fun i => ⟨i, [.scalar i]⟩ := by
  simp only [actingRows, activeIds]
  induction s.timer with
  | nil => rfl
  | cons a l ih =>
    rw [List.filterMap_cons, List.filter_cons]
    by_cases h : a.remaining = some 0
    · simp [h, ih]
    · simp [h, ih]

theorem acts_iff {s : Story σ} {id : Val} : Acts s id ↔ id ∈ s.activeIds := by
  rw [Acts, actingRows_eq, List.map_map]; simp [Function.comp_def]

theorem actingRows_eq_nil {s : Story σ} : actingRows s = [] ↔ s.activeIds = [] := by
  rw [actingRows_eq, List.map_eq_nil_iff]

theorem initStoryData_eq (s : Story σ) :
    initStoryData s.idField s.activeIds = ⟨[s.idField], actingRows s⟩ := by
  rw [initStoryData, actingRows_eq]

theorem activeIds_nodup {s : Story σ} (h : s.ids.Nodup) : s.activeIds.Nodup :=
  h.sublist ((List.filter_sublist (l := s.timer)).map _)

/-! ### Checks and forced members -/

theorem checkIds_eq_ok {s : Story σ} {l : List Val} {u : Unit} :
    s.checkIds l = .ok u ↔ ∀ i ∈ l, i ∈ s.ids := by
  rw [checkIds]
  split
  · rename_i h
    simp only [List.all_eq_true, List.contains_iff_mem] at h
    simp; exact h
  · rename_i h
    simp only [List.all_eq_true, List.contains_iff_mem] at h
    simp
    simpa using h

theorem mem_minusForced {s : Story σ} {l : List Val} {id : Val} :
    id ∈ s.minusForced l ↔ id ∈ l ∧ id ∉ s.forced := by
  rw [minusForced]
  split
  · rename_i h; simp [h]
  · rw [(sortBy_perm _ _).mem_iff, List.mem_filter]
    simp [mem_uniq]

theorem minusForced_nodup {s : Story σ} {l : List Val} (h : l.Nodup) : (s.minusForced l).Nodup := by
  rw [minusForced]
  split
  · exact h
  · rw [(sortBy_perm _ _).nodup_iff]
    exact (uniq_nodup _).filter _

/-! ### The methods -/

theorem ite_row_id {c : Prop} [Decidable c] {a b : TimerRow} (h : a.id = b.id) :
    (if c then a else b).id = b.id := by
  split
  · exact h
  · rfl


theorem tickIds_mem {s : Story σ} {l : List Val} {id : Val} :
    id ∈ (if s.forced.length > 0 then s.minusForced l else l) ↔ id ∈ l ∧ id ∉ s.forced := by
  split
  · exact mem_minusForced
  · rename_i h
    have : s.forced = [] := List.length_eq_zero_iff.1 (by omega)
    simp [this]

/-- effect of a tick on one row -/
def tickedRow (r : TimerRow) : TimerRow := { r with remaining := ticked r.remaining }

theorem tick_row (r : TimerRow) :
    (if nonneg r then { r with remaining := r.remaining.map (· - 1) } else r) = tickedRow r := by
  obtain ⟨i, st, rem⟩ := r
  cases rem with
  | none => simp [nonneg, tickedRow, ticked]
  | some q =>
    by_cases h : 0 ≤ q <;> simp [nonneg, tickedRow, ticked, h]

theorem timerTick_ok {s s' : Story σ} {l : List Val} (h : s.timerTick l = .ok s') :
    (∀ i ∈ l, i ∉ s.forced → i ∈ s.ids) ∧
    s' = { s with timer := s'.timer } ∧ s'.ids = s.ids ∧
    ∀ id, s'.row? id = if id ∈ l ∧ id ∉ s.forced then (s.row? id).map tickedRow else s.row? id := by
  rw [timerTick] at h
  simp only [bind_eq_ok] at h
  obtain ⟨_, hc, h⟩ := h
  rw [checkIds_eq_ok] at hc
  cases h
  refine ⟨fun i hi hf => hc i (tickIds_mem.2 ⟨hi, hf⟩), rfl, ids_map ?_ rfl, fun id => ?_⟩
  · exact fun r => ite_row_id rfl
  · rw [row?_map (s := s) (f := fun r => if (List.contains (if s.forced.length > 0 then
      s.minusForced l else l) r.id && nonneg r) = true then
        { r with remaining := r.remaining.map (· - 1) } else r) (fun r => ite_row_id rfl) rfl]
    cases hr : s.row? id with
    | none => simp
    | some r =>
      have hid := row?_id hr
      simp only [Option.map_some, Bool.and_eq_true, List.contains_iff_mem, tickIds_mem, hid]
      by_cases hm : id ∈ l ∧ id ∉ s.forced
      · simp only [hm, true_and]
        rw [← tick_row r, hid]; simp
      · simp [hm]

theorem timerTick_total {s : Story σ} {l : List Val} (h : ∀ i ∈ l, i ∉ s.forced → i ∈ s.ids) :
    ∃ s', s.timerTick l = .ok s' := by
  rw [timerTick]
  have : s.checkIds (if s.forced.length > 0 then s.minusForced l else l) = .ok () :=
    checkIds_eq_ok.2 fun i hi => by
      rw [tickIds_mem] at hi; exact h i hi.1 hi.2
  simp only [this]
  exact ⟨_, rfl⟩

theorem forceActNext_ok {s s' : Story σ} {l : List Val} (h : s.forceActNext l = .ok s') :
    (∀ i ∈ l, i ∈ s.ids) ∧ s' = { s with timer := s'.timer, forced := s'.forced } ∧
    s'.ids = s.ids ∧ (∀ id, id ∈ s'.forced ↔ id ∈ l ∨ id ∈ s.forced) ∧
    ∀ id, s'.row? id = if id ∈ l then (s.row? id).map ({ · with remaining := some 0 })
      else s.row? id := by
  rw [forceActNext] at h
  split at h
  · simp only [bind_eq_ok] at h
    obtain ⟨_, hc, h⟩ := h
    rw [checkIds_eq_ok] at hc
    cases h
    refine ⟨hc, rfl, ids_map ?_ rfl, fun id => List.mem_append, fun id => ?_⟩
    · exact fun r => ite_row_id rfl
    · rw [row?_map (s := s) (f := fun r => if List.contains l r.id = true then
        { r with remaining := some 0 } else r) (fun r => ite_row_id rfl) rfl]
      cases hr : s.row? id with
      | none => simp
      | some r =>
        have hid := row?_id hr
        by_cases hm : id ∈ l <;> simp [hid, hm]
  · rename_i hl
    have : l = [] := List.length_eq_zero_iff.1 (by omega)
    cases h
    simp [this]

theorem get?_reverse_zip_isSome {β : Type} {l : List Val} {v : List β} (h : v.length = l.length)
    {id : Val} : id ∈ l → ∃ b, Dict.get? (l.zip v).reverse id = some b := by
  intro hm
  have : id ∈ Dict.keys (l.zip v).reverse := by
    simp only [Dict.keys, List.map_reverse, List.mem_reverse]
    rw [List.map_fst_zip (by omega)]
    exact hm
  rw [← Dict.get?_isSome_iff] at this
  exact Option.isSome_iff_exists.1 this


theorem get?_reverse_zip {β : Type} {l : List Val} {v : List β} {id : Val} {b : β}
    (h : Dict.get? (l.zip v).reverse id = some b) :
    ∃ k : Nat, l[k]? = some id ∧ v[k]? = some b := by
  have := Dict.get?_mem h
  rw [List.mem_reverse, List.mem_iff_getElem?] at this
  obtain ⟨k, hk⟩ := this
  rw [List.getElem?_zip_eq_some] at hk
  exact ⟨k, hk⟩

theorem fst_zip_sublist {α β : Type} (l : List α) (v : List β) :
    ((l.zip v).map Prod.fst).Sublist l := by
  induction l generalizing v with
  | nil => simp
  | cons a l ih =>
    cases v with
    | nil => simp
    | cons b v => simpa using ih v

theorem get?_reverse_zip_eq {β : Type} {l : List Val} {v : List β} (hnd : l.Nodup) {k : Nat}
    {id : Val} {b : β} (h1 : l[k]? = some id) (h2 : v[k]? = some b) :
    Dict.get? (l.zip v).reverse id = some b := by
  obtain ⟨i, hi⟩ := List.getElem?_eq_some_iff.1 h1
  have hm : (id, b) ∈ (l.zip v).reverse := by
    rw [List.mem_reverse, List.mem_iff_getElem?]
    exact ⟨k, List.getElem?_zip_eq_some.2 ⟨h1, h2⟩⟩
  refine Dict.get?_of_mem ?_ hm
  rw [Dict.WF, Dict.keys, List.map_reverse, List.nodup_reverse]
  exact hnd.sublist (fst_zip_sublist _ _)

theorem get?_reverse_zip_none {β : Type} {l : List Val} {v : List β} {id : Val} (h : id ∉ l) :
    Dict.get? (l.zip v).reverse id = none := by
  rw [Dict.get?_eq_none_iff]
  intro hm
  simp only [Dict.keys, List.map_reverse, List.mem_reverse, List.mem_map] at hm
  obtain ⟨p, hp, rfl⟩ := hm
  exact h (List.of_mem_zip hp).1

/-- of a repeated key, the last value counts -/
theorem get?_reverse_zip_last {β : Type} {l : List Val} {v : List β} {k : Nat} {id : Val} {b : β}
    (h1 : l[k]? = some id) (h2 : v[k]? = some b) (hlast : ∀ j, k < j → l[j]? ≠ some id) :
    Dict.get? (l.zip v).reverse id = some b := by
  induction l generalizing k v with
  | nil => simp at h1
  | cons a l ih =>
    cases v with
    | nil => simp at h2
    | cons c v =>
      have happ : ∀ (d : Dict Val β) (e : Val × β),
          Dict.get? (d ++ [e]) id = (Dict.get? d id).or (if e.1 = id then some e.2 else none) := by
        intro d e
        induction d with
        | nil => rfl
        | cons x d ihd =>
          simp only [List.cons_append, Dict.get?]
          split
          · rfl
          · exact ihd
      rw [List.zip_cons_cons, List.reverse_cons, happ]
      cases k with
      | zero =>
        rw [get?_reverse_zip_none]
        · simp only [List.getElem?_cons_zero, Option.some.injEq] at h1 h2
          simp [h1, h2]
        · intro hm
          obtain ⟨j, hj⟩ := List.mem_iff_getElem?.1 hm
          exact hlast (j + 1) (by omega) (by simpa using hj)
      | succ k =>
        rw [ih (k := k) (by simpa using h1) (by simpa using h2)
          (fun j hj => by simpa using hlast (j + 1) (by omega))]
        rfl

theorem transitToState_ok {s s' : Story σ} {l st : List Val} (h : s.transitToState l st = .ok s') :
    (∀ i ∈ l, i ∈ s.ids) ∧ st.length = l.length ∧ s' = { s with timer := s'.timer } ∧
    s'.ids = s.ids ∧
    (∀ id, id ∉ l → s'.row? id = s.row? id) ∧
    (∀ id, id ∈ l → ∃ (k : Nat) (v : Val), l[k]? = some id ∧ st[k]? = some v ∧
      s'.row? id = (s.row? id).map ({ · with state := v })) ∧
    (∀ (k : Nat) (id v : Val), l[k]? = some id → st[k]? = some v → (∀ j, k < j → l[j]? ≠ some id) →
      s'.row? id = (s.row? id).map ({ · with state := v })) := by
  rw [transitToState] at h
  simp only [bind_eq_ok] at h
  obtain ⟨_, hc, h⟩ := h
  rw [checkIds_eq_ok] at hc
  split at h
  · cases h
  rename_i hl
  have hl : st.length = l.length := by omega
  cases h
  have hf : ∀ r : TimerRow, (match Dict.get? (l.zip st).reverse r.id with
      | some st => { r with state := st }
      | none => r).id = r.id := by intro r; split <;> rfl
  refine ⟨hc, hl, rfl, ids_map hf rfl, fun id hid => ?_, fun id hid => ?_, fun k id v h1 h2 hlast => ?_⟩
  · rw [row?_map (s := s) hf rfl]
    cases hr : s.row? id with
    | none => rfl
    | some r => simp [row?_id hr, get?_reverse_zip_none hid]
  · obtain ⟨v, hv⟩ := get?_reverse_zip_isSome hl hid
    obtain ⟨k, h1, h2⟩ := get?_reverse_zip hv
    refine ⟨k, v, h1, h2, ?_⟩
    rw [row?_map (s := s) hf rfl]
    cases hr : s.row? id with
    | none => rfl
    | some r => simp [row?_id hr, hv]
  · rw [row?_map (s := s) hf rfl]
    cases hr : s.row? id with
    | none => rfl
    | some r => simp [row?_id hr, get?_reverse_zip_last h1 h2 hlast]

theorem transitToState_total {s : Story σ} {l st : List Val} (h : ∀ i ∈ l, i ∈ s.ids)
    (hl : st.length = l.length) : ∃ s', s.transitToState l st = .ok s' := by
  rw [transitToState]
  simp only [checkIds_eq_ok (u := ()).2 h]
  simp [hl, bind, Except.bind]

/-! ### Parameters -/

theorem paramOf_eq_ok {s : Story σ} {id : Val} {p : StateParams} (hm : id ∈ s.ids) :
    s.paramOf id = .ok p ↔ paramsOf s id = some p := by
  obtain ⟨r, hr⟩ := exists_row? hm
  rw [paramOf, paramsOf, stateOf_eq, hr, Dict.get.eq_def]
  cases hd : s.params.get? id with
  | none => simp [bind, Except.bind]
  | some d =>
    simp only [bind, Except.bind, Option.map_some, Option.bind]
    by_cases hs : s.states.length = 1
    · simp only [hs, if_true, Dict.get.eq_def, defaultState]
      cases d.get? (Val.str "default") <;> simp
    · simp only [hs, if_false, Dict.get.eq_def]
      cases d.get? r.state <;> simp

theorem getParam_eq_ok {which : StateParams → Rat} {s : Story σ} {l : List Val} {a : List Rat}
    (hm : ∀ i ∈ l, i ∈ s.ids) :
    s.getParam which l = .ok a ↔ ∃ ps, List.Forall₂ (fun id p => paramsOf s id = some p) l ps ∧
      a = ps.map which := by
  induction l generalizing a with
  | nil => simp [getParam, pure, Except.pure, eq_comm]
  | cons i l ih =>
    have ih := fun a => ih (a := a) fun j hj => hm j (List.mem_cons_of_mem _ hj)
    simp only [getParam, List.mapM_cons, bind_eq_ok] at ih ⊢
    constructor
    · rintro ⟨x, ⟨p, hp, hx⟩, as, has, h⟩
      obtain ⟨ps, h1, h2⟩ := (ih as).1 has
      cases hx; cases h
      exact ⟨p :: ps, List.Forall₂.cons ((paramOf_eq_ok (hm i (by simp))).1 hp) h1, by simp [h2]⟩
    · rintro ⟨ps, h1, h2⟩
      cases h1 with
      | @cons _ p _ ps hp h1 =>
        refine ⟨which p, ⟨p, (paramOf_eq_ok (hm i (by simp))).2 hp, rfl⟩, ps.map which,
          (ih _).2 ⟨ps, h1, rfl⟩, ?_⟩
        rw [h2]; rfl

/-! ### Resets -/

theorem assignTimers_row (s : Story σ) (vals : List (Val × Option Rat)) (id : Val) :
    ({ s with timer := assignTimers s.timer vals } : Story σ).row? id =
      (s.row? id).map fun r => match Dict.get? vals.reverse id with
        | some v => { r with remaining := v }
        | none => r := by
  rw [row?_map (s := s) (f := fun r => match Dict.get? vals.reverse r.id with
    | some v => { r with remaining := v }
    | none => r) (by intro r; split <;> rfl) rfl]
  cases hr : s.row? id with
  | none => rfl
  | some r => simp [row?_id hr]

/-- the value given to a timer -/
def newTimer (p : StateParams) (t : Option Rat) : Option Rat :=
  if p.activity ≠ 0 then t else some (-1)

theorem zipWith_newTimer (ps : List StateParams) (ts : List (Option Rat)) :
    List.zipWith (fun a t => if a ≠ 0 then t else some (-1)) (ps.map (·.activity)) ts =
      List.zipWith newTimer ps ts := by
  induction ps generalizing ts with
  | nil => rfl
  | cons p ps ih => cases ts with
    | nil => rfl
    | cons t ts =>
      rw [List.map_cons, List.zipWith_cons_cons, List.zipWith_cons_cons, ih]; rfl

theorem resetTimers_ok {observe : γ → List Cell → Py (List Cell × γ)} {g g' : γ} {s s' : Story σ}
    {ids? : Option (List Val)} (h : s.resetTimers observe g ids? = .ok (s', g')) :
    s' = { s with timer := s'.timer } ∧ s'.ids = s.ids ∧
    (∀ id, (id ∉ ids?.getD s.ids ∨ id ∈ s.forced) → s'.row? id = s.row? id) ∧
    ((s.minusForced (ids?.getD s.ids) = [] ∧ s' = s ∧ g' = g) ∨
     ∃ ps cells ts, s.minusForced (ids?.getD s.ids) ≠ [] ∧
      (∀ i ∈ s.minusForced (ids?.getD s.ids), i ∈ s.ids) ∧
      List.Forall₂ (fun id p => paramsOf s id = some p) (s.minusForced (ids?.getD s.ids)) ps ∧
      observe g (ps.map fun p => .num p.activity) = .ok (cells, g') ∧
      cells.mapM asTimer = .ok ts ∧ ts.length = (s.minusForced (ids?.getD s.ids)).length ∧
      (∀ id, id ∈ s.minusForced (ids?.getD s.ids) → ∃ (k : Nat) (p : StateParams) (t : Option Rat),
        (s.minusForced (ids?.getD s.ids))[k]? = some id ∧ ps[k]? = some p ∧ ts[k]? = some t ∧
        s'.row? id = (s.row? id).map ({ · with remaining := newTimer p t })) ∧
      ((s.minusForced (ids?.getD s.ids)).Nodup → ∀ (k : Nat) (id : Val) (p : StateParams)
        (t : Option Rat), (s.minusForced (ids?.getD s.ids))[k]? = some id → ps[k]? = some p →
        ts[k]? = some t → s'.row? id = (s.row? id).map ({ · with remaining := newTimer p t }))) := by
  have hmem : ∀ id, (id ∉ ids?.getD s.ids ∨ id ∈ s.forced) →
      id ∉ s.minusForced (ids?.getD s.ids) := by
    intro id h1 h2
    rw [mem_minusForced] at h2
    rcases h1 with h1 | h1
    · exact h1 h2.1
    · exact h2.2 h1
  rw [resetTimers] at h
  generalize s.minusForced (ids?.getD s.ids) = l at *
  simp only at h
  split at h
  · rename_i hl
    cases h
    exact ⟨rfl, rfl, fun _ _ => rfl, .inl ⟨hl, rfl, rfl⟩⟩
  rename_i hl
  simp only [bind_eq_ok] at h
  obtain ⟨acts, ha, ⟨cells, g1⟩, ho, ts, ht, _, hc, h⟩ := h
  rw [checkIds_eq_ok] at hc
  obtain ⟨ps, hps, rfl⟩ := (getParam_eq_ok hc).1 ha
  simp only at h ht
  split at h
  · cases h
  rename_i hlen
  have hlen : ts.length = l.length := by omega
  rw [zipWith_newTimer] at h
  cases h
  have hpl := hps.length_eq
  have hzl : (List.zipWith newTimer ps ts).length = l.length := by
    rw [List.length_zipWith]; omega
  refine ⟨rfl, ?_, fun id hid => ?_, .inr ⟨ps, cells, ts, hl, hc, hps, ?_, ht, hlen,
    fun id hid => ?_, fun hnd k id p t h1 h2 h3 => ?_⟩⟩
  · exact ids_map (f := fun r => match Dict.get? (l.zip (List.zipWith newTimer ps ts)).reverse r.id with
      | some v => { r with remaining := v }
      | none => r) (by intro r; split <;> rfl) rfl
  · rw [assignTimers_row, get?_reverse_zip_none (hmem id hid)]
    simp
  · simpa [Function.comp_def] using ho
  · obtain ⟨v, hv⟩ := get?_reverse_zip_isSome hzl hid
    obtain ⟨k, h1, h2⟩ := get?_reverse_zip hv
    rw [List.getElem?_zipWith_eq_some] at h2
    obtain ⟨p, t, hp, ht, rfl⟩ := h2
    refine ⟨k, p, t, h1, hp, ht, ?_⟩
    rw [assignTimers_row, hv]
  · have : (List.zipWith newTimer ps ts)[k]? = some (newTimer p t) :=
      List.getElem?_zipWith_eq_some.2 ⟨p, t, h2, h3, rfl⟩
    rw [assignTimers_row, get?_reverse_zip_eq hnd h1 this]

/-! ### Back to the default state -/

theorem maybeBackToDefault_ok {R : Rng σ} {s s' : Story σ} {index : List Val}
    (h : s.maybeBackToDefault R index = .ok s') :
    s' = { s with timer := s'.timer, judge := s'.judge } ∧ s'.ids = s.ids ∧
    (∀ i ∈ index, i ∈ s.ids) ∧
    ((s.nonDefault index = [] ∧ s' = s) ∨ ∃ ps, s.nonDefault index ≠ [] ∧
      List.Forall₂ (fun id p => paramsOf s id = some p) (s.nonDefault index) ps ∧
      s'.judge = (backConds R s.judge (ps.map (·.back))).2 ∧
      ∀ id, s'.row? id =
        if id ∈ (((s.nonDefault index).zip
          (backConds R s.judge (ps.map (·.back))).1).filter (·.2)).map Prod.fst
        then (s.row? id).map ({ · with state := defaultState }) else s.row? id) := by
  rw [maybeBackToDefault] at h
  simp only [bind_eq_ok] at h
  obtain ⟨_, hc, h⟩ := h
  rw [checkIds_eq_ok] at hc
  split at h
  · rename_i hl
    cases h
    exact ⟨rfl, rfl, hc, .inl ⟨hl, rfl⟩⟩
  rename_i hl
  simp only [bind_eq_ok] at h
  obtain ⟨probs, hp, h⟩ := h
  have hnd : ∀ i ∈ s.nonDefault index, i ∈ s.ids := fun i hi => hc i (List.mem_of_mem_filter hi)
  obtain ⟨ps, hps, rfl⟩ := (getParam_eq_ok hnd).1 hp
  obtain ⟨h1, h2, h3, h4, h5, h6, -⟩ := transitToState_ok h
  refine ⟨?_, h4, hc, .inr ⟨ps, hl, hps, ?_, fun id => ?_⟩⟩
  · rw [h3]
  · rw [h3]
  · split
    · rename_i hm
      obtain ⟨k, v, hk, hv, hr⟩ := h6 id hm
      rw [hr]
      rw [List.getElem?_map, Option.map_eq_some_iff] at hv
      obtain ⟨_, _, rfl⟩ := hv
      rfl
    · rename_i hm
      rw [h5 id hm]; rfl

end Story
end Trumania
