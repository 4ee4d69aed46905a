import Verif.Props.Columns
import Verif.Props.StoryHistory
import Verif.Props.StoryStates

/-!
# Property C94 (which members the operations on stories act upon)
-/

namespace Trumania
open Spec World Story
variable {σ γ : Type} {env : Env σ γ}

/-- the row is not filtered out by the (optional) condition field -/
def Spec.Passes (data : Frame) (cond : Option String) (x : Row) : Prop :=
  ∀ c, cond = some c → cell data x c = .bool true

/-- some row that passes the condition holds `id` in the id field -/
def Spec.Names (data : Frame) (idField : String) (cond : Option String) (id : Val) : Prop :=
  id ≠ .na ∧ ∃ x ∈ data.rows, Passes data cond x ∧ cell data x idField = .scalar id

/-- the member is named in the field or, without field, is one of those the story data is about -/
def Spec.NamedIn (data : Frame) : Option String → Val → Prop
  | none, id => id ∈ data.index
  | some f, id => Names data f none id

theorem notna_iff {c : Cell} : c.notna = true ↔ c ≠ .na := by
  cases c with
  | list _ => simp [Cell.notna, Cell.na]
  | scalar v => cases v <;> simp [Cell.notna, Cell.na]

theorem conds_eq {data : Frame} {c : String} {cells : List Cell} {conds : List Bool}
    (h1 : data.col c = .ok cells) (h2 : cells.mapM Cell.asBool = .ok conds) :
    conds = data.rows.map (fun x => decide (cell data x c = .bool true)) := by
  have h3 := Frame.col_eq_map h1
  subst h3
  have h2 := mapM_ok_iff.1 h2
  rw [List.forall₂_map_left_iff] at h2
  clear * - h2
  generalize data.rows = rows at h2
  induction h2 with
  | nil => rfl
  | @cons x b rows bs hx _ ih =>
    have := asBool_ok hx
    rw [List.map_cons, ← ih, this]
    cases b <;> simp [Cell.bool]

theorem maskedIds_ok {idField : String} {cond : Option String} {data : Frame} {cells : List Cell}
    {ids : List Val} (h1 : Ops.maskedIds idField cond data = .ok cells)
    (h2 : (cells.filter Cell.notna).mapM Cell.asVal = .ok ids) (id : Val) :
    id ∈ ids ↔ Names data idField cond id := by
  have hmem : id ∈ ids ↔ id ≠ .na ∧ .scalar id ∈ cells := by
    have h2 := mapM_ok_iff.1 h2
    constructor
    · intro hid
      obtain ⟨c, hc, he⟩ := forall₂_exists_left h2 hid
      have := asVal_ok he
      subst this
      rw [List.mem_filter, notna_iff] at hc
      exact ⟨fun h => hc.2 (by rw [h]), hc.1⟩
    · rintro ⟨hna, hc⟩
      obtain ⟨v, hv, he⟩ := forall₂_exists_right h2 (List.mem_filter.2 ⟨hc, notna_iff.2
        (fun h => hna (by cases h; rfl))⟩)
      cases he
      exact hv
  rw [hmem, Names]
  refine and_congr_right fun hna => ?_
  cases cond with
  | none =>
    have h1 := Frame.col_eq_map h1
    subst h1
    rw [List.mem_map]
    simp [Passes]
  | some c =>
    obtain ⟨cs, k1, h1⟩ := bind_eq_ok.1 h1
    obtain ⟨conds, k2, h1⟩ := bind_eq_ok.1 h1
    obtain ⟨idc, k3, h1⟩ := bind_eq_ok.1 h1
    cases h1
    rw [conds_eq k1 k2, Frame.col_eq_map k3, List.zipWith_map, List.zipWith_self, List.mem_map]
    refine exists_congr fun x => and_congr_right fun _ => ?_
    simp only [Passes, Option.some.injEq, forall_eq']
    by_cases hb : cell data x c = .bool true
    · simp [hb]
    · simp only [hb, decide_false, Bool.false_eq_true, if_false, false_and, iff_false]
      intro h
      exact hna (by cases h; rfl)

/-- **C94** `force_act_next`: exactly the members named by the rows that pass the condition are forced;
their timers become 0, the timers and marks of all the others are kept, and nothing else changes. -/
theorem C94_force_act_next {k : Nat} {idField : String} {cond : Option String} {data out : Frame}
    {logs : Logs} {w w' : World σ γ} {s : Story σ} (hs : w.stories[k]? = some s)
    (h : Ops.forceActNext k idField cond data w = .ok (out, logs) w') :
    out = data ∧ logs = [] ∧ ∃ s', w' = { w with stories := w.stories.set k s' } ∧
      s' = { s with timer := s'.timer, forced := s'.forced } ∧ s'.ids = s.ids ∧
      (∀ id, Names data idField cond id →
        id ∈ s.ids ∧ id ∈ s'.forced ∧ timerOf s' id = some (some 0)) ∧
      (∀ id, ¬ Names data idField cond id →
        (id ∈ s'.forced ↔ id ∈ s.forced) ∧ timerOf s' id = timerOf s id) ∧
      (∀ id, stateOf s' id = stateOf s id) := by
  obtain ⟨h1, h0⟩ := sideEffect_eq_ok.1 h
  cases h0
  refine ⟨rfl, rfl, ?_⟩
  split at h1
  · rename_i he
    obtain ⟨-, rfl⟩ := Act.pure_eq_ok.1 h1
    refine ⟨s, ?_, rfl, rfl, ?_, ?_, fun _ => rfl⟩
    · have : w.stories.set k s = w.stories := by
        obtain ⟨hi, rfl⟩ := List.getElem?_eq_some_iff.1 hs
        exact List.set_getElem_self hi
      rw [this]
    · rintro id ⟨-, x, hx, -⟩
      rw [he] at hx
      cases hx
    · exact fun _ _ => ⟨Iff.rfl, rfl⟩
  · obtain ⟨cells, w1, h2, h3⟩ := Act.bind_eq_ok.1 h1
    obtain ⟨k2, rfl⟩ := Act.ofPy_eq_ok.1 h2
    obtain ⟨ids, w2, h4, h5⟩ := Act.bind_eq_ok.1 h3
    obtain ⟨k4, rfl⟩ := Act.ofPy_eq_ok.1 h4
    obtain ⟨s0, s', e1, e2, rfl⟩ := onStory_eq_ok.1 h5
    rw [hs] at e1
    cases e1
    have hnm := maskedIds_ok k2 k4
    obtain ⟨f0, f1, f2, f3, f4⟩ := forceActNext_ok e2
    refine ⟨s', rfl, f1, f2, fun id hid => ?_, fun id hid => ?_, fun id => ?_⟩
    · rw [← hnm] at hid
      exact ⟨f0 id hid, (C32_force_sets_timer s s' ids e2 id).1 hid⟩
    · rw [← hnm] at hid
      exact (C32_force_sets_timer s s' ids e2 id).2 hid
    · rw [stateOf_eq, stateOf_eq, f4]
      split
      · cases s.row? id <;> rfl
      · rfl

/-- **C94** `reset_timers`: the timers of the members named in the field (of the members acting, if no
field is given), except those that are forced, are drawn again, by one call of the timer generator on
their current activities; the other timers, and all the states, are kept. -/
theorem C94_reset_timers {k : Nat} {idField : Option String} {data out : Frame}
    {logs : Logs} {w w' : World σ γ} {s : Story σ} (hs : w.stories[k]? = some s)
    (hn : data.index.Nodup)
    (h : Ops.resetTimers env k idField data w = .ok (out, logs) w') :
    out = data ∧ logs = [] ∧ ∃ (s' : Story σ) (l : List Val), w'.stories = w.stories.set k s' ∧
      l.Nodup ∧
      (∀ id, id ∈ l ↔ id ∉ s.forced ∧ NamedIn data idField id) ∧
      s' = { s with timer := s'.timer } ∧ s'.ids = s.ids ∧
      (∀ id, id ∉ l → timerOf s' id = timerOf s id) ∧
      (∀ id, stateOf s' id = stateOf s id) ∧
      (l = [] → w' = w) ∧
      (l ≠ [] → ∃ w1, Rescheduled env w s l (timerOf s') w1 ∧
        w' = { w1 with stories := w1.stories.set k s' }) := by
  obtain ⟨h1, h0⟩ := sideEffect_eq_ok.1 h
  cases h0
  refine ⟨rfl, rfl, ?_⟩
  obtain ⟨ids, w1, h2, h3⟩ := Act.bind_eq_ok.1 h1
  obtain ⟨k2, rfl⟩ := Act.ofPy_eq_ok.1 h2
  obtain ⟨s0, s', w2, e1, e2, rfl⟩ := resetTimers_eq_ok.1 h3
  rw [hs] at e1
  cases e1
  have hids : ids.Nodup ∧ ∀ id, id ∈ ids ↔ NamedIn data idField id := by
    cases idField with
    | none => cases k2; exact ⟨hn, fun _ => Iff.rfl⟩
    | some f =>
      obtain ⟨cells, j1, k2⟩ := bind_eq_ok.1 k2
      obtain ⟨vs, j2, k2⟩ := bind_eq_ok.1 k2
      cases k2
      exact ⟨uniq_nodup _, fun id => by rw [mem_uniq]; exact maskedIds_ok (cond := none) j1 j2 id⟩
  obtain ⟨r1, r2, r3, r4, r5, r6, r7⟩ := resetStory_ok e2
  simp only [Option.getD_some] at r5 r7
  refine ⟨s', s.minusForced ids, by rw [r1], minusForced_nodup hids.1, fun id => ?_, r3, r4,
    fun id hid => ?_, r6, fun hnil => ?_, fun hne => ?_⟩
  · rw [mem_minusForced, hids.2, and_comm]
  · rw [mem_minusForced] at hid
    rw [timerOf_eq, timerOf_eq, r5 id (by tauto)]
  · rcases r7 with ⟨-, rfl, rfl⟩ | ⟨ps, cells, ts, hne, -⟩
    · have : w2.stories.set k s' = w2.stories := by
        obtain ⟨hi, rfl⟩ := List.getElem?_eq_some_iff.1 hs
        exact List.set_getElem_self hi
      rw [this]
    · exact absurd hnil hne
  · rcases r7 with ⟨hnil, -⟩ | ⟨ps, cells, ts, -, hmem, hps, ho, hts, hlen, -, hrow⟩
    · exact absurd hnil hne
    refine ⟨w2, rescheduled_of hps ho hts hlen fun k id p t k1 k2 k3 => ?_, rfl⟩
    obtain ⟨r, hr⟩ := exists_row? (hmem id (List.mem_of_getElem? k1))
    rw [timerOf_eq, hrow (minusForced_nodup hids.1) k id p t k1 k2 k3, hr]
    rfl

/-- where a transition takes the new state of a row from -/
def Spec.newState (data : Frame) : Ops.StateSource → Row → Cell
  | .const st, _ => .scalar st
  | .field f, x => cell data x f

/-- the row asks for a transition: it passes the condition and names a member and, in the state field if
there is one, a state -/
def Spec.Transits (data : Frame) (idField : String) (src : Ops.StateSource) (cond : Option String)
    (x : Row) (id st : Val) : Prop :=
  Passes data cond x ∧ cell data x idField = .scalar id ∧ id ≠ .na ∧
    newState data src x = .scalar st ∧ (∀ f, src = .field f → st ≠ .na)

theorem mask_map (data : Frame) (p : Row → Bool) :
    data.mask (data.rows.map p) = ⟨data.cols, data.rows.filter p⟩ := by
  rw [Frame.mask]
  congr 1
  generalize data.rows = rows
  induction rows with
  | nil => rfl
  | cons a rows ih =>
    rw [List.map_cons, List.zip_cons_cons, List.filter_cons, List.filter_cons]
    cases hp : p a
    · simpa using ih
    · simpa using ih

open Classical in
theorem conditioned_ok {cond : Option String} {data filtered : Frame}
    (h : Ops.conditioned cond data = .ok filtered) :
    filtered = ⟨data.cols, data.rows.filter fun x => decide (Passes data cond x)⟩ := by
  cases cond with
  | none =>
    cases h
    simp [Passes]
  | some c =>
    obtain ⟨cs, k1, h⟩ := bind_eq_ok.1 h
    obtain ⟨conds, k2, h⟩ := bind_eq_ok.1 h
    cases h
    rw [conds_eq k1 k2, mask_map]
    simp [Passes]

theorem mapM_filterMap {α β : Type} {f : α → Py β} {l : List α} {l' : List β}
    (h : l.mapM f = .ok l') : l' = l.filterMap fun a => (f a).toOption := by
  replace h := mapM_ok_iff.1 h
  induction h with
  | nil => rfl
  | cons hx _ ih => rw [List.filterMap_cons, hx, ← ih]; rfl

/-- the transitions asked by the rows, in order -/
theorem transitions_ok {idField : String} {src : Ops.StateSource} {cond : Option String}
    {data filtered : Frame} {ts : List (Val × Val)} (h1 : Ops.conditioned cond data = .ok filtered)
    (h2 : Ops.transitions idField src filtered = .ok ts) :
    ∃ g : Row → Option (Val × Val), ts = data.rows.filterMap g ∧
      ∀ x id st, g x = some (id, st) ↔ Transits data idField src cond x id st := by
  classical
  have h1 := conditioned_ok h1
  cases src with
  | const st0 =>
    obtain ⟨cells, k1, h2⟩ := bind_eq_ok.1 h2
    obtain ⟨ids, k2, h2⟩ := bind_eq_ok.1 h2
    cases h2
    have k1 := Frame.col_eq_map k1
    refine ⟨fun x => if Passes data cond x ∧ cell data x idField ≠ .na then
      ((cell data x idField).asVal.toOption).map fun i => (i, st0) else none, ?_, ?_⟩
    · rw [mapM_filterMap k2, k1, h1, List.filter_map, List.filterMap_map, List.filter_filter,
        List.filterMap_filter, List.map_filterMap]
      congr 1
      funext x
      have : cell ⟨data.cols, data.rows.filter fun x => decide (Passes data cond x)⟩ x idField =
        cell data x idField := rfl
      simp only [Function.comp_apply, this, Bool.and_eq_true, decide_eq_true_eq, notna_iff]
      by_cases hp : Passes data cond x <;> by_cases hc : cell data x idField = .na <;> simp [hp, hc]
    · intro x id st
      rw [Transits, newState]
      cases hc : cell data x idField with
      | list l => simp [hc, Cell.asVal, Except.toOption]
      | scalar v =>
        by_cases hp : Passes data cond x <;> by_cases hv : v = .na <;>
          simp [hc, hp, hv, Cell.asVal, Except.toOption, Cell.na] <;> aesop
  | field f =>
    obtain ⟨ids, k1, h2⟩ := bind_eq_ok.1 h2
    obtain ⟨sts, k2, h2⟩ := bind_eq_ok.1 h2
    have k1 := Frame.col_eq_map k1
    have k2 := Frame.col_eq_map k2
    refine ⟨fun x => if Passes data cond x ∧ cell data x idField ≠ .na ∧ cell data x f ≠ .na then
      (do .ok (← (cell data x idField).asVal, ← (cell data x f).asVal) : Py (Val × Val)).toOption
      else none, ?_, ?_⟩
    · rw [mapM_filterMap h2, k1, k2, h1, List.zip_map', List.filter_map, List.filterMap_map,
        List.filter_filter, List.filterMap_filter]
      congr 1
      funext x
      have : ∀ n, cell ⟨data.cols, data.rows.filter fun x => decide (Passes data cond x)⟩ x n =
        cell data x n := fun _ => rfl
      simp only [Function.comp_apply, this, Bool.and_eq_true, decide_eq_true_eq, notna_iff]
      by_cases hp : Passes data cond x <;> by_cases hc : cell data x idField = .na <;>
        by_cases hc' : cell data x f = .na <;> simp [hp, hc, hc']
    · intro x id st
      rw [Transits, newState]
      cases hc : cell data x idField with
      | list l => simp [hc, Cell.asVal, Except.toOption, bind, Except.bind]
      | scalar v =>
        cases hc' : cell data x f with
        | list l => simp [hc, hc', Cell.asVal, Except.toOption, bind, Except.bind]
        | scalar u =>
          by_cases hp : Passes data cond x <;> by_cases hv : v = .na <;> by_cases hu : u = .na <;>
            simp [hc, hc', hp, hv, hu, Cell.asVal, Except.toOption, Cell.na, bind, Except.bind] <;> aesop

theorem filterMap_last {α : Type} {rows : List α} {g : α → Option (Val × Val)} {j : Nat} {x : α}
    {id st : Val} (hx : rows[j]? = some x) (hg : g x = some (id, st))
    (hlast : ∀ i y, j < i → rows[i]? = some y → ∀ st', g y ≠ some (id, st')) :
    ∃ m : Nat, (rows.filterMap g)[m]? = some (id, st) ∧
      ∀ m', m < m' → ((rows.filterMap g).map Prod.fst)[m']? ≠ some id := by
  obtain ⟨hj, hxe⟩ := List.getElem?_eq_some_iff.1 hx
  have hrows : rows = rows.take j ++ x :: rows.drop (j + 1) := by
    rw [← hxe, ← List.drop_eq_getElem_cons hj, List.take_append_drop]
  have hB : ∀ p ∈ (rows.drop (j + 1)).filterMap g, p.1 ≠ id := by
    rintro ⟨a, b⟩ hp rfl
    obtain ⟨y, hy, hgy⟩ := List.mem_filterMap.1 hp
    obtain ⟨i, hi⟩ := List.mem_iff_getElem?.1 hy
    rw [List.getElem?_drop] at hi
    exact hlast _ y (by omega) hi b hgy
  rw [hrows, List.filterMap_append, List.filterMap_cons, hg]
  simp only
  generalize (rows.drop (j + 1)).filterMap g = B at hB
  generalize (rows.take j).filterMap g = A
  refine ⟨A.length, by simp, fun m' hm hm' => ?_⟩
  rw [List.getElem?_map, List.getElem?_append_right (by omega)] at hm'
  obtain ⟨d, hd⟩ : ∃ d, m' - A.length = d + 1 := ⟨m' - A.length - 1, by omega⟩
  rw [hd, List.getElem?_cons_succ, Option.map_eq_some_iff] at hm'
  obtain ⟨p, hp, he⟩ := hm'
  exact hB p (List.mem_of_getElem? hp) he

/-- **C94** `transit_to_state`: a member named by a row that passes the condition takes the state given by
the last such row; the others keep theirs, and nothing else changes. -/
theorem C94_transit_to_state {k : Nat} {idField : String} {src : Ops.StateSource}
    {cond : Option String} {data out : Frame} {logs : Logs} {w w' : World σ γ} {s : Story σ}
    (hs : w.stories[k]? = some s)
    (h : Ops.transitToState k idField src cond data w = .ok (out, logs) w') :
    out = data ∧ logs = [] ∧ ∃ s', w' = { w with stories := w.stories.set k s' } ∧
      s' = { s with timer := s'.timer } ∧ s'.ids = s.ids ∧
      (∀ id, timerOf s' id = timerOf s id) ∧
      (∀ id, (∀ x ∈ data.rows, ∀ st, ¬ Transits data idField src cond x id st) →
        stateOf s' id = stateOf s id) ∧
      (∀ (j : Nat) (x : Row) (id st : Val), data.rows[j]? = some x →
        Transits data idField src cond x id st →
        (∀ i y, j < i → data.rows[i]? = some y → ∀ st', ¬ Transits data idField src cond y id st') →
        id ∈ s.ids ∧ stateOf s' id = some st) := by
  obtain ⟨h1, h0⟩ := sideEffect_eq_ok.1 h
  cases h0
  refine ⟨rfl, rfl, ?_⟩
  obtain ⟨filtered, w1, h2, h3⟩ := Act.bind_eq_ok.1 h1
  obtain ⟨k2, rfl⟩ := Act.ofPy_eq_ok.1 h2
  obtain ⟨ts, w2, h4, h5⟩ := Act.bind_eq_ok.1 h3
  obtain ⟨k4, rfl⟩ := Act.ofPy_eq_ok.1 h4
  obtain ⟨s0, s', e1, e2, rfl⟩ := onStory_eq_ok.1 h5
  rw [hs] at e1
  cases e1
  obtain ⟨g, rfl, hg⟩ := transitions_ok k2 k4
  obtain ⟨c1, c2, c3, c4, c5⟩ := C40_transit_to_state s s' _ _ e2
  refine ⟨s', rfl, c1, c2, c3, fun id hno => c4 id ?_, fun j x id st hx htr hlast => ?_⟩
  · intro hm
    obtain ⟨⟨a, b⟩, hp, rfl⟩ := List.mem_map.1 hm
    obtain ⟨x, hx, hgx⟩ := List.mem_filterMap.1 hp
    exact hno x hx b ((hg x a b).1 hgx)
  · obtain ⟨m, hm, hm'⟩ := filterMap_last hx ((hg x id st).2 htr)
      (fun i y hi hy st' hgy => hlast i y hi hy st' ((hg y id st').1 hgy))
    refine ⟨?_, c5 m id st (by simp [hm]) (by simp [hm]) hm'⟩
    obtain ⟨q1, -⟩ := (C40_transit_to_state_total s _ _).1 ⟨s', e2⟩
    exact q1 id (List.mem_map.2 ⟨(id, st), List.mem_of_getElem? hm, rfl⟩)

/-- **C94** the constructor `transit_to_state` wants exactly one of a state and a state field, and the
operation it builds uses the one it was given. -/
theorem C94_transit_arguments {k : Nat} {idField : String} {stateField : Option String}
    {state : Option Val} {cond : Option String} :
    (∀ op : Op (World σ γ), Ops.mkTransitToState k idField stateField state cond = .ok op →
      (∃ f, stateField = some f ∧ state = none ∧ op = Ops.transitToState k idField (.field f) cond) ∨
      ∃ st, stateField = none ∧ state = some st ∧ op = Ops.transitToState k idField (.const st) cond) ∧
    ((stateField.isSome = state.isSome) ↔
      (Ops.mkTransitToState k idField stateField state cond : Py (Op (World σ γ))) =
        .error .valueError) := by
  cases stateField <;> cases state <;> simp [Ops.mkTransitToState, eq_comm]

/-! ### Non-vacuity -/

/-- some members, the state they go to and whether they should -/
def exMoves : Frame := ⟨["WHO", "TO", "REALLY"],
  [⟨.str "m", [.str "a", .str "busy", .bool true]⟩, ⟨.str "n", [.na, .str "busy", .bool true]⟩,
   ⟨.str "o", [.str "c", .str "busy", .bool false]⟩, ⟨.str "p", [.str "a", .str "idle", .bool true]⟩]⟩

example : Names exMoves "WHO" (some "REALLY") (.str "a") ∧ ¬ Names exMoves "WHO" (some "REALLY") (.str "c") ∧
    Names exMoves "WHO" none (.str "c") := by
  simp only [Names, Passes]
  decide +kernel

example : ((Ops.forceActNext 1 "WHO" (some "REALLY") exMoves).world? exWorld).map (fun w =>
    (w.timers, w.stories.map (·.forced))) =
      some ([[some 0, some 2, some (-1)], [some 0, some (-1), some (-1)]],
        [[], [.str "a", .str "a"]]) := by decide +kernel

example : ((Ops.transitToState 0 "WHO" (.field "TO") none exMoves).world? exWorld).map (fun w =>
    w.stories.map fun s => s.timer.map (·.state)) =
      some [[.str "idle", .str "busy", .str "busy"], [.str "default", .str "default", .str "default"]] := by decide +kernel

example : ((Ops.resetTimers exEnv 0 (some "WHO") exMoves).world? exWorld).map World.timers =
    some [[some 3, some 2, some (-1)], [some (-1), some (-1), some (-1)]] := by
  decide +kernel

end Trumania
