import Verif.Model.Cdr
import Verif.Proofs.Records
import Verif.Proofs.SndSims
import Verif.Props.Ledger

/-! Helper lemmas: what the operations of the scenario of test_cdr.py do to the records. -/

namespace Trumania
namespace Cdr
open Spec World
variable {σ γ : Type} {env : Env σ γ}

/-! ### The functions given to `Apply` -/

theorem cellsOf_sources {data : Frame} {sources : List String} (hs : sources.Nodup) {c : String}
    (hc : c ∈ sources) (x : Row) :
    cell (⟨sources, data.rows.map fun r => ⟨r.idx, sources.map (cell data r)⟩⟩ : Frame)
      ⟨x.idx, sources.map (cell data x)⟩ c = cell data x c := by
  rw [cell]
  simp only
  clear hs
  induction sources with
  | nil => cases hc
  | cons s l ih =>
    rw [List.map_cons, List.zip_cons_cons]
    by_cases e : s = c
    · subst e
      simp
    · rw [List.find?_cons_of_neg (by simpa using e)]
      exact ih ((List.mem_cons.1 hc).resolve_left (Ne.symm e))

theorem callValue_ok {d r : Frame} (h : callValue d = .ok r) :
    (r.index = d.index ∧ Rect r ∧ r.cols = ["result"]) ∧
    List.Forall₂ (fun x y => ∃ c, doubled (cell d x "DURATION") = .ok c ∧ y.cells = [c]) d.rows r.rows := by
  obtain ⟨cs, h1, h⟩ := bind_eq_ok.1 h
  obtain ⟨vs, h2, h⟩ := bind_eq_ok.1 h
  obtain ⟨e1, e2, e3, e4⟩ := Frame.ofColumn_ok h
  refine ⟨⟨e1, ofColumn_rect h, e2⟩, ?_⟩
  have h2 := mapM_ok_iff.1 h2
  rw [Frame.col_eq_map h1, List.forall₂_map_left_iff] at h2
  rw [e3, Frame.index]
  clear * - h2
  generalize hrows : d.rows = rows at h2
  clear hrows
  induction h2 with
  | nil => exact .nil
  | cons h _ ih => exact .cons ⟨_, h, rfl⟩ ih

theorem smsValue_ok {d r : Frame} (h : smsValue d = .ok r) :
    (r.index = d.index ∧ Rect r ∧ r.cols = ["result"]) ∧
    List.Forall₂ (fun _ y => y.cells = [Cell.num 10]) d.rows r.rows := by
  obtain ⟨e1, e2, e3, e4⟩ := Frame.ofColumn_ok h
  refine ⟨⟨e1, ofColumn_rect h, e2⟩, ?_⟩
  rw [e3, Frame.index]
  clear * -
  induction d.rows with
  | nil => exact .nil
  | cons x l ih => exact .cons rfl ih

theorem cdrType_ok {d r : Frame} (h : cdrType d = .ok r) :
    (r.index = d.index ∧ Rect r ∧ r.cols = ["result"]) ∧
    List.Forall₂ (fun x y => y.cells = [onnet (cell d x "OPERATOR_A") (cell d x "OPERATOR_B")]) d.rows r.rows := by
  obtain ⟨cs, h1, h⟩ := bind_eq_ok.1 h
  obtain ⟨vs, h2, h⟩ := bind_eq_ok.1 h
  obtain ⟨e1, e2, e3, e4⟩ := Frame.ofColumn_ok h
  refine ⟨⟨e1, ofColumn_rect h, e2⟩, ?_⟩
  rw [e3, Frame.index, Frame.col_eq_map h1, Frame.col_eq_map h2]
  clear * -
  induction d.rows with
  | nil => exact .nil
  | cons x l ih => exact .cons rfl ih

theorem callStatus_ok {d r : Frame} (h : callStatus d = .ok r) :
    (r.index = d.index ∧ Rect r ∧ r.cols = ["result"]) ∧
    List.Forall₂ (fun x y => ∃ a b, cell d x "CELL_A_ACCEPTS" = .bool a ∧ cell d x "CELL_B_ACCEPTS" = .bool b ∧
      y.cells = [status a b]) d.rows r.rows := by
  obtain ⟨cs, h1, h⟩ := bind_eq_ok.1 h
  obtain ⟨as, h2, h⟩ := bind_eq_ok.1 h
  obtain ⟨cs', h3, h⟩ := bind_eq_ok.1 h
  obtain ⟨bs, h4, h⟩ := bind_eq_ok.1 h
  obtain ⟨e1, e2, e3, e4⟩ := Frame.ofColumn_ok h
  refine ⟨⟨e1, ofColumn_rect h, e2⟩, ?_⟩
  have h2 := mapM_ok_iff.1 h2
  have h4 := mapM_ok_iff.1 h4
  rw [Frame.col_eq_map h1, List.forall₂_map_left_iff] at h2
  rw [Frame.col_eq_map h3, List.forall₂_map_left_iff] at h4
  rw [e3, Frame.index]
  clear * - h2 h4
  generalize hrows : d.rows = rows at h2 h4
  clear hrows
  induction h2 generalizing bs with
  | nil => cases h4; exact .nil
  | cons h _ ih =>
    cases h4 with
    | cons h' t' => exact .cons ⟨_, _, asBool_ok h, asBool_ok h', rfl⟩ (ih _ t')

theorem asList_ok {c : Cell} {l : List Val} (h : c.asList = .ok l) : c = .list l := by
  cases c with
  | scalar v => cases h
  | list vs => cases h; rfl

/-- what `do_select` reads and gives -/
structure Selected (so : SetOrder Val) (d : Frame) (x y : Row) : Prop where
  idx : y.idx = x.idx
  row : ∃ ma oa sa ca mb ob sb m o s c m' o' s', cell d x "MSISDNS_A" = .list ma ∧
    cell d x "OPERATORS_A" = .list oa ∧ cell d x "A_SIMS" = .list sa ∧ cell d x "MAIN_ACCTS_A" = .list ca ∧
    cell d x "MSISDNS_B" = .list mb ∧ cell d x "OPERATORS_B" = .list ob ∧ cell d x "B_SIMS" = .list sb ∧
    ma[(chosen so oa ob).1]? = some m ∧ oa[(chosen so oa ob).1]? = some o ∧ sa[(chosen so oa ob).1]? = some s ∧
    ca[(chosen so oa ob).1]? = some c ∧ mb[(chosen so oa ob).2]? = some m' ∧
    ob[(chosen so oa ob).2]? = some o' ∧ sb[(chosen so oa ob).2]? = some s' ∧
    y.cells = [.scalar m, .scalar o, .scalar s, .scalar c, .scalar m', .scalar o', .scalar s']

theorem selectRow_ok {so : SetOrder Val} {d : Frame} {x y : Row} (h : selectRow so d x = .ok y) :
    Selected so d x y := by
  rw [selectRow] at h
  obtain ⟨cs, h1, h⟩ := bind_eq_ok.1 h
  replace h1 := mapM_ok_iff.1 h1
  have key : ∀ {n : String} {l : List Val},
      (do (← Frame.cellAt (← d.pos n) x).asList : Py (List Val)) = .ok l → cell d x n = .list l := by
    intro n l hl
    obtain ⟨i, k1, hl⟩ := bind_eq_ok.1 hl
    obtain ⟨c, k2, hl⟩ := bind_eq_ok.1 hl
    rw [Frame.cell_of_pos k1 k2, asList_ok hl]
  simp only [simColumns] at h1
  cases h1 with
  | cons a1 h1 =>
  cases h1 with
  | cons a2 h1 =>
  cases h1 with
  | cons a3 h1 =>
  cases h1 with
  | cons a4 h1 =>
  cases h1 with
  | cons a5 h1 =>
  cases h1 with
  | cons a6 h1 =>
  cases h1 with
  | cons a7 h1 =>
  cases h1
  simp only at h
  obtain ⟨m, k1, h⟩ := bind_eq_ok.1 h
  obtain ⟨o, k2, h⟩ := bind_eq_ok.1 h
  obtain ⟨s, k3, h⟩ := bind_eq_ok.1 h
  obtain ⟨c, k4, h⟩ := bind_eq_ok.1 h
  obtain ⟨m', k5, h⟩ := bind_eq_ok.1 h
  obtain ⟨o', k6, h⟩ := bind_eq_ok.1 h
  obtain ⟨s', k7, h⟩ := bind_eq_ok.1 h
  cases h
  exact ⟨rfl, _, _, _, _, _, _, _, _, _, _, _, _, _, _, key a1, key a2, key a3, key a4, key a5, key a6, key a7,
    Circus.nth_ok k1, Circus.nth_ok k2, Circus.nth_ok k3, Circus.nth_ok k4, Circus.nth_ok k5, Circus.nth_ok k6, Circus.nth_ok k7, rfl⟩

theorem selectSims_ok {so : SetOrder Val} {d r : Frame} (h : selectSims so d = .ok r) :
    (r.index = d.index ∧ Rect r ∧ r.cols = ["0", "1", "2", "3", "4", "5", "6"]) ∧
    List.Forall₂ (Selected so d) d.rows r.rows := by
  rw [selectSims] at h
  obtain ⟨rows, h1, h⟩ := bind_eq_ok.1 h
  cases h
  have h1 := (mapM_ok_iff.1 h1).imp fun _ _ h => selectRow_ok h
  refine ⟨⟨?_, ?_, rfl⟩, h1⟩
  · show rows.map (·.idx) = d.rows.map (·.idx)
    clear * - h1
    generalize hd : d.rows = l at h1
    clear hd
    induction h1 with
    | nil => rfl
    | cons h _ ih => rw [List.map_cons, List.map_cons, ih, h.idx]
  · intro y hy
    obtain ⟨x, -, hx⟩ := forall₂_exists_left h1 hy
    obtain ⟨_, _, _, _, _, _, _, _, _, _, _, _, _, _, -, -, -, -, -, -, -, -, -, -, -, -, -, -, e⟩ := hx.row
    rw [e]
    rfl

/-- the common operator, if there is one -/
theorem chosen_spec {so : SetOrder Val} {a b : List Val} {o o' : Val}
    (h : a[(chosen so a b).1]? = some o) (h' : b[(chosen so a b).2]? = some o')
    (hc : ∃ x ∈ a, x ∈ b) : o = o' := by
  obtain ⟨x, hx, hx'⟩ := hc
  have hm : x ∈ so.order (a.filter fun x => decide (x ∈ b)) := by
    rw [so.mem, List.mem_filter]
    exact ⟨hx, by simpa using hx'⟩
  rw [chosen] at h h'
  cases hl : so.order (a.filter fun x => decide (x ∈ b)) with
  | nil => rw [hl] at hm; cases hm
  | cons y l =>
    rw [hl] at h h'
    have hy : y ∈ so.order (a.filter fun x => decide (x ∈ b)) := by rw [hl]; simp
    rw [so.mem, List.mem_filter] at hy
    have hb : y ∈ b := by simpa using hy.2
    simp only [List.getElem?_idxOf hy.1, List.getElem?_idxOf hb] at h h'
    exact (Option.some.inj h).symm.trans (Option.some.inj h')

theorem arith_num {f : Rat → Rat → Rat} {a b c : Cell} (h : arith f a b = .ok c) {p q : Rat}
    (ha : a = .num p) (hb : b = .num q) : c = .num (f p q) := by
  subst ha hb
  cases h
  rfl

theorem arithColumns_ok {f : Rat → Rat → Rat} {data : Frame} {a b : String} {values : List Cell}
    (h : arithColumns f [cellsOf data a, cellsOf data b] = .ok values) :
    List.Forall₂ (fun x v => arith f (cell data x a) (cell data x b) = .ok v) data.rows values := by
  replace h := mapM_ok_iff.1 h
  rw [Frame.cellsOf_eq, Frame.cellsOf_eq] at h
  generalize hr : data.rows = rows at h
  clear hr
  induction rows generalizing values with
  | nil => cases h; exact .nil
  | cons x l ih =>
    cases h with
    | cons h t => exact .cons h (ih t)

/-! ### The operation `update` of an attribute -/

theorem attributeOf_unique {p : Population} (hp : Population.WF p) {n : String} {a b : Attribute}
    (ha : attributeOf p n a) (hb : attributeOf p n b) : a = b :=
  Option.some.inj ((Dict.get?_of_mem hp.names ha).symm.trans (Dict.get?_of_mem hp.names hb))

theorem attributeOf_set {p : Population} (hp : Population.WF p) {name n : String} {a b : Attribute} :
    attributeOf { p with attributes := p.attributes.set name a } n b ↔
      (n = name ∧ b = a) ∨ (n ≠ name ∧ attributeOf p n b) := by
  have hw : (((p.attributes.set name a) : Dict String Attribute).map Prod.fst).Nodup :=
    Dict.WF.set hp.names _ _
  constructor
  · intro h
    have h := Dict.get?_of_mem hw h
    rw [Dict.get?_set] at h
    split at h
    · next e => exact .inl ⟨e.symm, (Option.some.inj h).symm⟩
    · next e => exact .inr ⟨Ne.symm e, Dict.get?_mem h⟩
  · rintro (⟨rfl, rfl⟩ | ⟨hne, h⟩)
    · exact Dict.get?_mem (by rw [Dict.get?_set, if_pos rfl])
    · exact Dict.get?_mem (by rw [Dict.get?_set, if_neg (Ne.symm hne)]; exact Dict.get?_of_mem hp.names h)

theorem attrUpdate_ok {pop : Nat} {name idField copyFrom : String} {data out : Frame} {logs : Logs}
    {w w' : World σ γ} {p : Population} {a : Attribute} (hp : w.pops[pop]? = some p) (hwf : Population.WF p)
    (ha : attributeOf p name a) (hn : data.index.Nodup)
    (h : Ops.attrUpdate pop name idField copyFrom data w = .ok (out, logs) w') :
    out = data ∧ logs = [] ∧ w'.rels = w.rels ∧ (∀ k, k ≠ pop → w'.pops[k]? = w.pops[k]?) ∧
    (∀ i ∈ data.index, ∃ v, valueAt data i idField = .scalar v) ∧
    (∀ i ∈ data.index, ∀ j ∈ data.index, valueAt data i idField = valueAt data j idField → i = j) ∧
    ∃ p' a', w'.pops[pop]? = some p' ∧ Population.WF p' ∧ p'.ids = p.ids ∧ attributeOf p' name a' ∧
      (∀ n b, n ≠ name → (attributeOf p' n b ↔ attributeOf p n b)) ∧
      ∀ s c, Holds a' s c ↔ (∃ i ∈ data.index, valueAt data i idField = .scalar s ∧ c = valueAt data i copyFrom) ∨
        ((∀ i ∈ data.index, valueAt data i idField ≠ .scalar s) ∧ Holds a s c) := by
  replace h := sideEffect_eq_ok.1 h
  obtain ⟨h, h0⟩ := h
  cases h0
  refine ⟨rfl, rfl, ?_⟩
  split at h
  · next he =>
    obtain ⟨-, rfl⟩ := Act.pure_eq_ok.1 h
    have hi : data.index = [] := by rw [Frame.index, he]; rfl
    exact ⟨rfl, fun _ _ => rfl, by rw [hi]; simp, by rw [hi]; simp, p, a, hp, hwf, rfl, ha,
      fun _ _ _ => Iff.rfl, by rw [hi]; simp⟩
  · obtain ⟨values, w1, h1, h⟩ := Act.bind_eq_ok.1 h
    obtain ⟨ids, w2, h2, h⟩ := Act.bind_eq_ok.1 h
    obtain ⟨h1', rfl⟩ := Act.ofPy_eq_ok.1 h1
    obtain ⟨h2', rfl⟩ := Act.ofPy_eq_ok.1 h2
    obtain ⟨p0, w3, h3, h⟩ := Act.bind_eq_ok.1 h
    obtain ⟨a0, w4, h4, h⟩ := Act.bind_eq_ok.1 h
    obtain ⟨a', w5, h5, h⟩ := Act.bind_eq_ok.1 h
    obtain ⟨h3', rfl⟩ := getPop_eq_ok.1 h3
    obtain ⟨h4', rfl⟩ := Act.ofPy_eq_ok.1 h4
    obtain ⟨h5', rfl⟩ := Act.ofPy_eq_ok.1 h5
    replace h5' : a0.update (ids.zip values) = .ok a' := h5'
    have h6 := setPop_eq_ok.1 h
    subst h6
    obtain rfl : p0 = p := Option.some.inj (h3'.symm.trans hp)
    have hat : attributeOf p0 name a0 := Dict.get?_mem (Population.get_eq_ok.1 h4')
    obtain rfl := attributeOf_unique hwf hat ha
    have hone : OneValueEach a0 := hwf.values _ hat
    have hnd : ((ids.zip values).map Prod.fst).Nodup := by
      by_contra hc
      rw [C53_update_duplicates a0 hc] at h5'
      cases h5'
    have hf := idColumn_forall h2'
    have hlen : ids.length = data.rows.length := hf.length_eq.symm
    have hv : values = data.rows.map fun r => cell data r copyFrom := Frame.col_eq_map h1'
    rw [List.map_fst_zip (by rw [hv, List.length_map, hlen])] at hnd
    have hone' := Attribute.update_oneValueEach hone h5'
    have hidv : ids = data.rows.map fun r => idIn (cell data r idField) := by
      clear * - hf
      generalize hr : data.rows = rows at hf
      clear hr
      induction hf with
      | nil => rfl
      | cons h _ ih => rw [List.map_cons, ← ih, h]; rfl
    have hsc : ∀ r ∈ data.rows, ∃ v, cell data r idField = .scalar v := by
      intro r hr
      obtain ⟨v, -, e⟩ := forall₂_exists_right hf hr
      exact ⟨v, e⟩
    have hlt : pop < w.pops.length := (List.getElem?_eq_some_iff.1 hp).1
    refine ⟨rfl, fun k hk => List.getElem?_set_ne (Ne.symm hk), ?_, ?_, _, a', List.getElem?_set_self hlt,
      Population.wf_set hwf hone', rfl, (attributeOf_set hwf).2 (.inl ⟨rfl, rfl⟩), fun n b hne => ?_, fun s c => ?_⟩
    · intro i hi
      obtain ⟨r, hr, rfl⟩ := mem_index.1 hi
      rw [valueAt_row hn hr]
      exact hsc r hr
    · intro i hi j hj e
      obtain ⟨r, hr, rfl⟩ := mem_index.1 hi
      obtain ⟨r', hr', rfl⟩ := mem_index.1 hj
      rw [valueAt_row hn hr, valueAt_row hn hr'] at e
      rw [hidv] at hnd
      rw [List.inj_on_of_nodup_map hnd hr hr' (by simp only [e])]
    · rw [attributeOf_set hwf]
      simp [hne]
    · rw [Attribute.update_holds hone h5']
      have hz : ids.zip values = data.rows.map fun r => (idIn (cell data r idField), cell data r copyFrom) := by
        rw [hidv, hv, List.zip_map']
      rw [hz]
      constructor
      · rintro (hm | ⟨hm, hc⟩)
        · obtain ⟨r, hr, e⟩ := List.mem_map.1 hm
          obtain ⟨v, hv⟩ := hsc r hr
          rw [hv] at e
          cases e
          exact .inl ⟨r.idx, mem_index.2 ⟨r, hr, rfl⟩, by rw [valueAt_row hn hr, hv]; rfl, by rw [valueAt_row hn hr]⟩
        · refine .inr ⟨fun i hi e => hm ?_, hc⟩
          obtain ⟨r, hr, rfl⟩ := mem_index.1 hi
          rw [valueAt_row hn hr] at e
          rw [List.map_map]
          exact List.mem_map.2 ⟨r, hr, by simp [e, idIn]⟩
      · rintro (⟨i, hi, e, rfl⟩ | ⟨hm, hc⟩)
        · obtain ⟨r, hr, rfl⟩ := mem_index.1 hi
          rw [valueAt_row hn hr] at e
          exact .inl (List.mem_map.2 ⟨r, hr, by rw [e, valueAt_row hn hr]; rfl⟩)
        · refine .inr ⟨fun hs => ?_, hc⟩
          rw [List.map_map] at hs
          obtain ⟨r, hr, e⟩ := List.mem_map.1 hs
          obtain ⟨v, hv⟩ := hsc r hr
          simp only [Function.comp_apply, hv, idIn] at e
          subst e
          exact hm r.idx (mem_index.2 ⟨r, hr, rfl⟩) (by rw [valueAt_row hn hr, hv])

theorem KeepsPop.attrUpdate {k pop : Nat} (hp : pop ≠ k) {name i c : String} :
    Snd.KeepsPop k (Ops.attrUpdate pop name i c : Op (World σ γ)) := by
  intro data out w w' h
  obtain ⟨h, -⟩ := sideEffect_eq_ok.1 h
  split at h
  · obtain ⟨-, rfl⟩ := Act.pure_eq_ok.1 h
    rfl
  · obtain ⟨_, w1, h1, h⟩ := Act.bind_eq_ok.1 h
    obtain ⟨_, w2, h2, h⟩ := Act.bind_eq_ok.1 h
    obtain ⟨-, rfl⟩ := Act.ofPy_eq_ok.1 h1
    obtain ⟨-, rfl⟩ := Act.ofPy_eq_ok.1 h2
    obtain ⟨p, w1, h1, h⟩ := Act.bind_eq_ok.1 h
    obtain ⟨a, w2, h2, h⟩ := Act.bind_eq_ok.1 h
    obtain ⟨a', w3, h3, h⟩ := Act.bind_eq_ok.1 h
    obtain ⟨-, rfl⟩ := getPop_eq_ok.1 h1
    obtain ⟨-, rfl⟩ := Act.ofPy_eq_ok.1 h2
    obtain ⟨-, rfl⟩ := Act.ofPy_eq_ok.1 h3
    have h3 := setPop_eq_ok.1 h
    subst h3
    exact List.getElem?_set_ne hp

/-! ### Nested chains -/

theorem get?_none_nil {d : Logs} (h : ∀ id, d.get? id = none) : d = [] := by
  cases d with
  | nil => rfl
  | cons x d =>
    have := h x.1
    simp [Dict.get?] at this

/-- a nested chain runs its operations; if they log nothing, it logs nothing -/
theorem nested_ok {ops : List (Op (World σ γ))} {data out : Frame} {l : Logs} {w w' : World σ γ}
    (h : nested env ops data w = .ok (out, l) w') :
    ∃ ls, Runs ops data w out ls w' ∧ ((∀ x ∈ ls, x = []) → l = []) := by
  obtain ⟨hwf, ls, hr, hl⟩ := (chain_sequential env.logSet _ _ out _ w').1 l h
  refine ⟨ls, hr, fun hnil => get?_none_nil fun id => ?_⟩
  rw [hl]
  have : ls.filterMap (·.get? id) = [] := by
    rw [List.filterMap_eq_nil_iff]
    intro x hx
    rw [hnil x hx]
    rfl
  rw [this]
  rfl

end Cdr
end Trumania
