import Verif.Proofs.CdrFine
import Verif.Proofs.Object

/-! Helper lemmas: the records of the stories of calls and messages of test_cdr.py. -/

namespace Trumania
namespace Cdr
open Spec World
variable {σ γ : Type} {env : Env σ γ}

/-- who talks: the two members, and the SIM, the operator and the number of each -/
structure Talkers where
  a : Val
  b : Val
  simA : Val
  simB : Val
  opA : Val
  opB : Val
  numA : Val
  numB : Val

/-- the fields of a record that say who talks -/
def talkFields : List String := ["B_ID", "SIM_A", "SIM_B", "OPERATOR_A", "OPERATOR_B", "MSISDN_A", "MSISDN_B",
  "MAIN_ACCT_OLD", "TYPE"]

/-- The record `v` says who talks. `ao`, `am` and `ac` are the operators, the numbers and the accounts of the
SIMs; `fr` are the friends and `sr` the SIMs of the members. -/
structure Dialled (ao am ac : Attribute) (fr sr : List (Val × Val × Rat)) (v : String → Cell) (x : Talkers) :
    Prop where
  b : v "B_ID" = .scalar x.b
  simA : v "SIM_A" = .scalar x.simA
  simB : v "SIM_B" = .scalar x.simB
  opA : v "OPERATOR_A" = .scalar x.opA
  opB : v "OPERATOR_B" = .scalar x.opB
  numA : v "MSISDN_A" = .scalar x.numA
  numB : v "MSISDN_B" = .scalar x.numB
  friend : (∃ wt, (x.a, x.b, wt) ∈ fr) ∨ (x.b = .na ∧ ¬ Has fr x.a)
  ownA : x.simA ∈ tosOf sr x.a
  ownB : x.simB ∈ tosOf sr x.b
  opA_of : Holds ao x.simA (.scalar x.opA)
  opB_of : Holds ao x.simB (.scalar x.opB)
  numA_of : Holds am x.simA (.scalar x.numA)
  numB_of : Holds am x.simB (.scalar x.numB)
  old : ∃ c, v "MAIN_ACCT_OLD" = .scalar c ∧ Holds ac x.simA (.scalar c)
  type : v "TYPE" = onnet (.scalar x.opA) (.scalar x.opB)
  common : ∀ s ∈ tosOf sr x.a, ∀ s' ∈ tosOf sr x.b, ∀ o, Holds ao s (.scalar o) → Holds ao s' (.scalar o) →
    x.opA = x.opB

theorem Dialled.congr {ao am ac : Attribute} {fr sr : List (Val × Val × Rat)} {v v' : String → Cell} {x : Talkers}
    (h : Dialled ao am ac fr sr v x) (e : ∀ c ∈ talkFields, v' c = v c) : Dialled ao am ac fr sr v' x where
  b := (e _ (by decide)).trans h.b
  simA := (e _ (by decide)).trans h.simA
  simB := (e _ (by decide)).trans h.simB
  opA := (e _ (by decide)).trans h.opA
  opB := (e _ (by decide)).trans h.opB
  numA := (e _ (by decide)).trans h.numA
  numB := (e _ (by decide)).trans h.numB
  friend := h.friend
  ownA := h.ownA
  ownB := h.ownB
  opA_of := h.opA_of
  opB_of := h.opB_of
  numA_of := h.numA_of
  numB_of := h.numB_of
  old := by rw [e _ (by decide)]; exact h.old
  type := (e _ (by decide)).trans h.type
  common := h.common

/-- the fields added by `compute_ab_fields` -/
def abNew : List String := ["DATETIME", "B_ID", "A_SIMS", "OPERATORS_A", "MSISDNS_A", "MAIN_ACCTS_A", "B_SIMS",
  "OPERATORS_B", "MSISDNS_B", "MSISDN_A", "OPERATOR_A", "SIM_A", "MAIN_ACCT_OLD", "MSISDN_B", "OPERATOR_B",
  "SIM_B", "TYPE"]

/-- what a lookup of lists gives at a position -/
theorem looked_at {a : Attribute} {ids vals : List Val}
    (h : LooksUp a (.list ids) (.list vals)) {k : Nat} {i v : Val} (hi : ids[k]? = some i)
    (hv : vals[k]? = some v) : Holds a i (.scalar v) := by
  obtain ⟨cs, e, hf⟩ := h
  cases e
  have h1 := (List.getElem?_eq_some_iff.1 hi)
  have h2 := (List.getElem?_eq_some_iff.1 hv)
  have := (List.forall₂_iff_get.1 hf).2 k h1.1 h2.1
  rw [List.get_eq_getElem, List.get_eq_getElem, h1.2, h2.2] at this
  exact this

/-- a value looked up for a listed id is listed -/
theorem looked_mem {a : Attribute} (ha : OneValueEach a) {ids vals : List Val}
    (h : LooksUp a (.list ids) (.list vals)) {i v : Val} (hi : i ∈ ids) (hv : Holds a i (.scalar v)) :
    v ∈ vals := by
  obtain ⟨cs, e, hf⟩ := h
  cases e
  obtain ⟨u, hu, hh⟩ := forall₂_exists_right hf hi
  have e1 := Dict.get?_of_mem (d := a.table) ha hv
  have e2 := Dict.get?_of_mem (d := a.table) ha hh
  rw [e1] at e2
  injection e2 with e2
  injection e2 with e2
  rwa [e2]

section Groups
variable {t : Talk} {fmt : Int → Cell} {data out : Frame} {ls : List Logs} {w w' : World σ γ}

/-- the cells of a computed frame with one column -/
theorem one_column {name : String} {rows : List Row} {y : Row} {c : Cell} (h : y.cells = [c]) :
    cell ⟨[name], rows⟩ y name = c := by
  simp [cell, h]

theorem abFields_runs {p : Population} {ao am ac : Attribute} {rf rs : Relationship σ} (o : Orders)
    (hp : w.pops[t.sims]? = some p) (hwf : Population.WF p) (hao : attributeOf p "OPERATOR" ao)
    (ham : attributeOf p "MSISDN" am) (hac : attributeOf p "MAIN_ACCT" ac)
    (hrf : w.rels[t.friends]? = some rf) (hreach : Relationship.Reachable env.R rf)
    (hrs : w.rels[t.simsOf]? = some rs) (hne : t.friends ≠ t.simsOf)
    (hcols : data.cols = ["A_ID"]) (hr : Rect data) (hn : data.index.Nodup)
    (hid : ∀ i ∈ data.index, valueAt data i "A_ID" = .scalar i)
    (h : Runs (abFields env fmt t) data w out ls w') :
    (∀ l ∈ ls, l = []) ∧ w'.pops = w.pops ∧ Grows abNew data out ∧
    (∀ i ∈ out.index, ∃ x : Talkers, x.a = i ∧
      Dialled ao am ac (rf.get_relations o) (rs.get_relations o) (valueAt out i) x) ∧
    ∀ i ∈ out.index, ∀ j ∈ out.index, ∀ b, b ≠ .na → valueAt out i "B_ID" = .scalar b →
      valueAt out j "B_ID" = .scalar b → i = j := by
  rw [abFields] at h
  cases h with
  | @cons _ _ _ d1 _ _ w1 _ l1 _ h1 h =>
  cases h with
  | @cons _ _ _ d2 _ _ w2 _ l2 _ h2 h =>
  cases h with
  | @cons _ _ _ d3 _ _ w3 _ l3 _ h3 h =>
  cases h with
  | @cons _ _ _ d4 _ _ w4 _ l4 _ h4 h =>
  cases h with
  | @cons _ _ _ d5 _ _ w5 _ l5 _ h5 h =>
  cases h with
  | @cons _ _ _ d6 _ _ w6 _ l6 _ h6 h =>
  cases h with
  | @cons _ _ _ d7 _ _ w7 _ l7 _ h7 h =>
  cases h with
  | @cons _ _ _ d8 _ _ w8 _ l8 _ h8 h =>
  cases h
  -- the date
  obtain ⟨rfl, g1, i1⟩ := grows_adder (.timestamp true fmt) hr hn (by rw [hcols]; decide) h1
  have p1 : w1.pops = w.pops := columnAdder_pops (env := env) (.timestamp true fmt) h1
  have r1 : w1.rels = w.rels := columnAdder_rels (env := env) (.timestamp true fmt) h1
  have c1 : d1.cols = ["A_ID", "DATETIME"] := by rw [g1.cols, hcols]; rfl
  -- the friend
  obtain ⟨rfl, g2, p2, f2, o2⟩ := grows_selectOne g1.rect g1.nodup (by rw [c1]; decide) (r1 ▸ hrf) hreach o h2
  have r2 : w2.rels[t.simsOf]? = some rs := by
    obtain ⟨-, -, r', _, rfl, -⟩ := C92_select_one g1.nodup (r1 ▸ hrf) hreach o h2
    rw [List.getElem?_set_ne hne, r1, hrs]
  have c2 : d2.cols = ["A_ID", "DATETIME", "B_ID"] := by rw [g2.cols, c1]; rfl
  -- the SIMs of A
  obtain ⟨rfl, rfl, g3, rs3, hrs3, f3⟩ := grows_selectAll g2.rect g2.nodup (by rw [c2]; decide) o h3
  obtain rfl : rs3 = rs := Option.some.inj (hrs3.symm.trans r2)
  have c3 : d3.cols = ["A_ID", "DATETIME", "B_ID", "A_SIMS"] := by rw [g3.cols, c2]; rfl
  have hp2 : w3.pops[t.sims]? = some p := by rw [p2, p1]; exact hp
  obtain ⟨rfl, rfl, g4, i4, f4⟩ := grows_lookup hp2 hwf g3.rect g3.nodup (by decide)
    (by rw [c3]; decide) h4
  have c4 : d4.cols = ["A_ID", "DATETIME", "B_ID", "A_SIMS", "OPERATORS_A", "MSISDNS_A", "MAIN_ACCTS_A"] := by
    rw [g4.cols, c3]; rfl
  -- the SIMs of B
  obtain ⟨rfl, rfl, g5, rs5, hrs5, f5⟩ := grows_selectAll g4.rect g4.nodup (by rw [c4]; decide) o h5
  obtain rfl : rs5 = rs3 := Option.some.inj (hrs5.symm.trans r2)
  have c5 : d5.cols = ["A_ID", "DATETIME", "B_ID", "A_SIMS", "OPERATORS_A", "MSISDNS_A", "MAIN_ACCTS_A",
      "B_SIMS"] := by rw [g5.cols, c4]; rfl
  obtain ⟨rfl, rfl, g6, i6, f6⟩ := grows_lookup hp2 hwf g5.rect g5.nodup (by decide)
    (by rw [c5]; decide) h6
  have c6 : d6.cols = ["A_ID", "DATETIME", "B_ID", "A_SIMS", "OPERATORS_A", "MSISDNS_A", "MAIN_ACCTS_A",
      "B_SIMS", "OPERATORS_B", "MSISDNS_B"] := by rw [g6.cols, c5]; rfl
  -- the choice
  obtain ⟨rfl, rfl, g7, i7, res7, k7, f7⟩ := grows_frame g6.rect g6.nodup (by rw [c6]; decide)
    (fun d r hd => by
      obtain ⟨⟨e1, e2, e3⟩, -⟩ := selectSims_ok hd
      exact ⟨e1, e2, by rw [e3]; decide, by rw [e3]; rfl⟩) h7
  have c7 : d7.cols = ["A_ID", "DATETIME", "B_ID", "A_SIMS", "OPERATORS_A", "MSISDNS_A", "MAIN_ACCTS_A",
      "B_SIMS", "OPERATORS_B", "MSISDNS_B", "MSISDN_A", "OPERATOR_A", "SIM_A", "MAIN_ACCT_OLD", "MSISDN_B",
      "OPERATOR_B", "SIM_B"] := by rw [g7.cols, c6]; rfl
  obtain ⟨rfl, rfl, g8, i8, res8, k8, f8⟩ := grows_frame g7.rect g7.nodup (by rw [c7]; decide)
    (fun d r hd => by
      obtain ⟨⟨e1, e2, e3⟩, -⟩ := cdrType_ok hd
      exact ⟨e1, e2, by rw [e3]; decide, by rw [e3]; rfl⟩) h8
  have g26 := (g3.trans g4).trans (g5.trans g6)
  have gall := ((g1.trans g2).trans g26).trans (g7.trans g8)
  refine ⟨by simp, by rw [p2, p1], gall, fun i hi => ?_, fun i hi j hj b hb e1 e2 => ?_⟩
  · have j7 := g8.labels i hi
    have j6 := g7.labels i j7
    have j5 := g6.labels i j6
    have j4 := g5.labels i j5
    have j3 := g4.labels i j4
    have j2 := g3.labels i j3
    have j1 := g2.labels i j2
    have j0 := g1.labels i j1
    -- the types
    have t8 : valueAt out i "TYPE" = onnet (valueAt d7 i "OPERATOR_A") (valueAt d7 i "OPERATOR_B") := by
      obtain ⟨x, hx, rfl⟩ := mem_index.1 j7
      obtain ⟨k, hk⟩ := List.mem_iff_getElem?.1 hx
      have hf := (cdrType_ok k8).2
      rw [List.forall₂_map_left_iff] at hf
      have hlt := (List.getElem?_eq_some_iff.1 hk)
      have hlt' : k < res8.rows.length := hf.length_eq ▸ hlt.1
      have hy := List.getElem?_eq_getElem hlt'
      have := (List.forall₂_iff_get.1 hf).2 k hlt.1 hlt'
      rw [List.get_eq_getElem, List.get_eq_getElem, hlt.2, cellsOf_sources (by decide) (by decide),
        cellsOf_sources (by decide) (by decide)] at this
      rw [f8 k x _ hk hy "TYPE" (by decide), one_column this, valueAt_row g7.nodup hx, valueAt_row g7.nodup hx]
    -- the choice
    obtain ⟨y, hsel, hval⟩ : ∃ y : Row, (∃ ma oa sa ca mb ob sb m o s c m' o' s',
        valueAt d6 i "MSISDNS_A" = .list ma ∧
        valueAt d6 i "OPERATORS_A" = .list oa ∧ valueAt d6 i "A_SIMS" = .list sa ∧
        valueAt d6 i "MAIN_ACCTS_A" = .list ca ∧
        valueAt d6 i "MSISDNS_B" = .list mb ∧ valueAt d6 i "OPERATORS_B" = .list ob ∧
        valueAt d6 i "B_SIMS" = .list sb ∧
        ma[(chosen env.orders.set oa ob).1]? = some m ∧ oa[(chosen env.orders.set oa ob).1]? = some o ∧
        sa[(chosen env.orders.set oa ob).1]? = some s ∧
        ca[(chosen env.orders.set oa ob).1]? = some c ∧ mb[(chosen env.orders.set oa ob).2]? = some m' ∧
        ob[(chosen env.orders.set oa ob).2]? = some o' ∧ sb[(chosen env.orders.set oa ob).2]? = some s' ∧
        y.cells = [.scalar m, .scalar o, .scalar s, .scalar c, .scalar m', .scalar o', .scalar s']) ∧
        ∀ c ∈ ["MSISDN_A", "OPERATOR_A", "SIM_A", "MAIN_ACCT_OLD", "MSISDN_B", "OPERATOR_B", "SIM_B"],
          valueAt d7 i c = cell ⟨["MSISDN_A", "OPERATOR_A", "SIM_A", "MAIN_ACCT_OLD", "MSISDN_B", "OPERATOR_B",
            "SIM_B"], res7.rows⟩ y c := by
      obtain ⟨x, hx, rfl⟩ := mem_index.1 j6
      obtain ⟨k, hk⟩ := List.mem_iff_getElem?.1 hx
      have hf := (selectSims_ok k7).2
      rw [List.forall₂_map_left_iff] at hf
      have hlt := (List.getElem?_eq_some_iff.1 hk)
      have hlt' : k < res7.rows.length := hf.length_eq ▸ hlt.1
      have hy := List.getElem?_eq_getElem hlt'
      have := (List.forall₂_iff_get.1 hf).2 k hlt.1 hlt'
      rw [List.get_eq_getElem, List.get_eq_getElem, hlt.2] at this
      refine ⟨_, ?_, fun c hc => f7 k x _ hk hy c hc⟩
      have hrow := this.row
      rw [cellsOf_sources (by decide) (by decide), cellsOf_sources (by decide) (by decide),
        cellsOf_sources (by decide) (by decide), cellsOf_sources (by decide) (by decide),
        cellsOf_sources (by decide) (by decide), cellsOf_sources (by decide) (by decide),
        cellsOf_sources (by decide) (by decide)] at hrow
      simp only [valueAt_row g6.nodup hx]
      exact hrow
    obtain ⟨ma, oa, sa, ca, mb, ob, sb, m, op, s, c, m', op', s', e1, e2, e3, e4, e5, e6, e7, q1, q2, q3, q4, q5,
      q6, q7, hy⟩ := hsel
    have v1 : valueAt d7 i "MSISDN_A" = .scalar m := by rw [hval _ (by decide)]; simp [cell, hy]
    have v2 : valueAt d7 i "OPERATOR_A" = .scalar op := by rw [hval _ (by decide)]; simp [cell, hy]
    have v3 : valueAt d7 i "SIM_A" = .scalar s := by rw [hval _ (by decide)]; simp [cell, hy]
    have v4 : valueAt d7 i "MAIN_ACCT_OLD" = .scalar c := by rw [hval _ (by decide)]; simp [cell, hy]
    have v5 : valueAt d7 i "MSISDN_B" = .scalar m' := by rw [hval _ (by decide)]; simp [cell, hy]
    have v6 : valueAt d7 i "OPERATOR_B" = .scalar op' := by rw [hval _ (by decide)]; simp [cell, hy]
    have v7 : valueAt d7 i "SIM_B" = .scalar s' := by rw [hval _ (by decide)]; simp [cell, hy]
    -- the lists
    obtain ⟨lA, a1, -, a2⟩ := f3 i j3
    obtain ⟨lB, b1, -, b2⟩ := f5 i j5
    have hA : valueAt d6 i "A_SIMS" = .list lA := by
      rw [g6.kept i j6 _ (by rw [c5]; decide), g5.kept i j5 _ (by rw [c4]; decide),
        g4.kept i j4 _ (by rw [c3]; decide), a1]
    have hB : valueAt d6 i "B_SIMS" = .list lB := by rw [g6.kept i j6 _ (by rw [c5]; decide), b1]
    obtain rfl : lA = sa := by rw [hA] at e3; injection e3
    obtain rfl : lB = sb := by rw [hB] at e7; injection e7
    have hupA : ∀ n vs, n ∈ ["OPERATORS_A", "MSISDNS_A", "MAIN_ACCTS_A"] → valueAt d6 i n = .list vs →
        valueAt d4 i n = .list vs := by
      intro n vs hn' e
      have m5 : n ∈ d5.cols := by rw [c5]; clear e; revert hn'; revert n; decide
      have m4 : n ∈ d4.cols := by rw [c4]; clear e m5; revert hn'; revert n; decide
      rw [← e, g6.kept i j6 _ m5, g5.kept i j5 _ m4]
    obtain ⟨a', k1, u1⟩ := f4 i j4 ("OPERATOR", "OPERATORS_A") (by decide)
    obtain rfl := attributeOf_unique hwf k1 hao
    obtain ⟨a', k2, u2⟩ := f4 i j4 ("MSISDN", "MSISDNS_A") (by decide)
    obtain rfl := attributeOf_unique hwf k2 ham
    obtain ⟨a', k3, u3⟩ := f4 i j4 ("MAIN_ACCT", "MAIN_ACCTS_A") (by decide)
    obtain rfl := attributeOf_unique hwf k3 hac
    rw [a1] at u1 u2 u3
    simp only at u1 u2 u3
    rw [hupA _ _ (by decide) e2] at u1
    rw [hupA _ _ (by decide) e1] at u2
    rw [hupA _ _ (by decide) e4] at u3
    obtain ⟨a', k4, u4⟩ := f6 i j6 ("OPERATOR", "OPERATORS_B") (by decide)
    obtain rfl := attributeOf_unique hwf k4 k1
    obtain ⟨a', k5, u5⟩ := f6 i j6 ("MSISDN", "MSISDNS_B") (by decide)
    obtain rfl := attributeOf_unique hwf k5 k2
    simp only at u4 u5
    rw [b1, e6] at u4
    rw [b1, e5] at u5
    -- the friend
    have hAid : ∀ f : Frame, i ∈ f.index → (g : List String) → Grows g data f → valueAt f i "A_ID" = .scalar i :=
      fun f hf g hg => by rw [hg.kept i hf _ (by rw [hcols]; decide), hid i (hg.labels i hf)]
    obtain ⟨b, v0, hfr⟩ := f2 i j2
    have hB4 : valueAt d4 i "B_ID" = .scalar b := by
      rw [g4.kept i j4 _ (by rw [c3]; decide), g3.kept i j3 _ (by rw [c2]; decide), v0]
    rw [hAid d1 j1 _ g1] at hfr
    rw [hAid d2 j2 _ (g1.trans g2)] at a2
    rw [hB4] at b2
    simp only [idIn] at hfr a2 b2
    have hb7 : valueAt d7 i "B_ID" = .scalar b := by
      rw [g7.kept i j7 _ (by rw [c6]; decide), g6.kept i j6 _ (by rw [c5]; decide),
        g5.kept i j5 _ (by rw [c4]; decide), hB4]
    have h87 : ∀ n ∈ d7.cols, valueAt out i n = valueAt d7 i n := fun n hn' => g8.kept i hi n hn'
    refine ⟨⟨i, b, s, s', op, op', m, m'⟩, rfl, ?_⟩
    refine ⟨by rw [h87 _ (by rw [c7]; decide), hb7], by rw [h87 _ (by rw [c7]; decide), v3],
      by rw [h87 _ (by rw [c7]; decide), v7], by rw [h87 _ (by rw [c7]; decide), v2],
      by rw [h87 _ (by rw [c7]; decide), v6], by rw [h87 _ (by rw [c7]; decide), v1],
      by rw [h87 _ (by rw [c7]; decide), v5], hfr, ?_, ?_, looked_at u1 q3 q2, looked_at u4 q7 q6,
      looked_at u2 q3 q1, looked_at u5 q7 q5, ⟨c, by rw [h87 _ (by rw [c7]; decide), v4], looked_at u3 q3 q4⟩,
      by rw [t8, v2, v6], fun x hx x' hx' z hz hz' => ?_⟩
    · exact a2.mem_iff.1 (List.mem_of_getElem? q3)
    · exact b2.mem_iff.1 (List.mem_of_getElem? q7)
    · exact chosen_spec q2 q6 ⟨z, looked_mem (hwf.values _ k1) u1 (a2.mem_iff.2 hx) hz,
        looked_mem (hwf.values _ k1) u4 (b2.mem_iff.2 hx') hz'⟩
  · have gB := g26.trans (g7.trans g8)
    rw [gB.kept i hi _ (by rw [c2]; decide)] at e1
    rw [gB.kept j hj _ (by rw [c2]; decide)] at e2
    exact o2 rfl i (gB.labels i hi) j (gB.labels j hj) b hb e1 e2

/-- a lookup, in a population that must be there -/
theorem grows_lookup_of {pop : Nat} {idField : String} {sel : Dict String String} {data out : Frame}
    {logs : Logs} {w w' : World σ γ} (hw : ∀ p ∈ w.pops, Population.WF p) (hr : Rect data) (hn : data.index.Nodup)
    (hsel : (sel.map Prod.snd).Nodup) (hnew : ∀ s ∈ sel, s.2 ∉ data.cols)
    (h : Ops.lookup pop idField sel data w = .ok (out, logs) w') :
    w' = w ∧ logs = [] ∧ Grows (sel.map Prod.snd) data out ∧ out.index = data.index ∧
    ∃ p, w.pops[pop]? = some p ∧ ∀ i ∈ out.index, ∀ s ∈ sel,
      ∃ a, attributeOf p s.1 a ∧ LooksUp a (valueAt data i idField) (valueAt out i s.2) := by
  obtain ⟨o, h1, -⟩ := addColumns_eq_ok.1 h
  obtain ⟨p, w1, h2, -⟩ := Act.bind_eq_ok.1 h1
  obtain ⟨hp, -⟩ := getPop_eq_ok.1 h2
  obtain ⟨e1, e2, e3, e4, e5⟩ := grows_lookup hp (hw p (List.mem_of_getElem? hp)) hr hn hsel hnew h
  exact ⟨e1, e2, e3, e4, p, hp, e5⟩

/-- the values that a generator gave for those of a field -/
theorem answered_field {r : GenRef} {g : γ} {name observed : String} {data out : Frame} {logs : Logs}
    {w w' : World σ γ} (hr : Rect data) (hn : data.index.Nodup) (hname : name ∉ data.cols)
    (h : Ops.randomValuesFromField env r name observed data w = .ok (out, logs) w') (hw : Began env w r g) :
    ∀ i ∈ out.index, Replies env g (valueAt data i observed) (valueAt out i name) := by
  obtain ⟨-, hg, hi⟩ := grows_adder (env := env) (.randomValuesFromField _ _) hr hn hname h
  have key := began_observe hw (C43_generate_from_field hn hr hname h)
  intro i hm
  obtain ⟨y, hy, rfl⟩ := mem_index.1 hm
  obtain ⟨k, hk⟩ := List.mem_iff_getElem?.1 hy
  have hlen : data.rows.length = out.rows.length := by
    have := congrArg List.length hi
    simpa [Frame.index] using this.symm
  have hk' := List.getElem?_eq_some_iff.1 hk
  have hx : data.rows[k]? = some (data.rows[k]'(hlen ▸ hk'.1)) := List.getElem?_eq_getElem _
  generalize data.rows[k]'(hlen ▸ hk'.1) = x at hx
  have hidx : x.idx = y.idx := by
    have := congrArg (·[k]?) hi
    simp only [Frame.index, List.getElem?_map, hk, hx, Option.map_some, Option.some.injEq] at this
    exact this.symm
  rw [valueAt_row hg.nodup hy, ← hidx, valueAt_row hn (List.mem_of_getElem? hx)]
  refine key (_, _) (List.mem_iff_getElem?.2 ⟨k, List.getElem?_zip_eq_some.2 ⟨?_, ?_⟩⟩)
  · rw [cellsOf, List.getElem?_map, hx]
    rfl
  · rw [cellsOf, List.getElem?_map, hk]
    rfl

/-- what the trigger says of the health of a cell -/
def Verdict (env : Env σ γ) (w : World σ γ) (r : GenRef) (h : Cell) (b : Bool) : Prop :=
  ∀ g, Began env w r g → Replies env g h (.bool b)

/-- the status tells what was said of the health of the two cells -/
def Judged (P : List Population) (cells : Nat) (J : Cell → Bool → Prop) (v : String → Cell) : Prop :=
  ∃ a b q at_ ha hb, v "STATUS" = status a b ∧ P[cells]? = some q ∧ attributeOf q "HEALTH" at_ ∧
    LooksUp at_ (v "CELL_A") ha ∧ LooksUp at_ (v "CELL_B") hb ∧ J ha a ∧ J hb b

theorem Judged.congr {P : List Population} {cells : Nat} {J : Cell → Bool → Prop} {v v' : String → Cell}
    (hv : ∀ c ∈ ["STATUS", "CELL_A", "CELL_B"], v' c = v c) (h : Judged P cells J v) : Judged P cells J v' := by
  rw [Judged, hv _ (by decide), hv _ (by decide), hv _ (by decide)]
  exact h

theorem Judged.imp {P : List Population} {cells : Nat} {J J' : Cell → Bool → Prop} {v : String → Cell}
    (hJ : ∀ h b, J h b → J' h b) (h : Judged P cells J v) : Judged P cells J' v := by
  obtain ⟨a, b, q, at_, ha, hb, h1, h2, h3, h4, h5, h6, h7⟩ := h
  exact ⟨a, b, q, at_, ha, hb, h1, h2, h3, h4, h5, hJ _ _ h6, hJ _ _ h7⟩

/-- the fields added by `compute_cell_status` -/
def statusNew : List String := ["CELL_A", "EXCITABILITY_A", "CELL_B", "EXCITABILITY_B", "CELL_A_HEALTH",
  "CELL_B_HEALTH", "CELL_A_ACCEPTS", "CELL_B_ACCEPTS", "STATUS"]

theorem cellStatus_runs (hw : ∀ p ∈ w.pops, Population.WF p) (hcols : data.cols = "A_ID" :: abNew)
    (hr : Rect data) (hn : data.index.Nodup)
    (h : Runs (cellStatus env t) data w out ls w') :
    (∀ l ∈ ls, l = []) ∧ w'.pops = w.pops ∧ w'.rels = w.rels ∧ Grows statusNew data out ∧
    ∃ p, w.pops[t.subs]? = some p ∧ ∀ i ∈ out.index,
      (∃ a, attributeOf p "CELL" a ∧ LooksUp a (valueAt data i "A_ID") (valueAt out i "CELL_A") ∧
        LooksUp a (valueAt data i "B_ID") (valueAt out i "CELL_B")) ∧
      Judged w.pops t.cells (Verdict env w t.flatTrigger) (valueAt out i) := by
  rw [cellStatus] at h
  cases h with
  | @cons _ _ _ d1 _ _ w1 _ l1 _ h1 h =>
  cases h with
  | @cons _ _ _ d2 _ _ w2 _ l2 _ h2 h =>
  cases h with
  | @cons _ _ _ d3 _ _ w3 _ l3 _ h3 h =>
  cases h with
  | @cons _ _ _ d4 _ _ w4 _ l4 _ h4 h =>
  cases h with
  | @cons _ _ _ d5 _ _ w5 _ l5 _ h5 h =>
  cases h with
  | @cons _ _ _ d6 _ _ w6 _ l6 _ h6 h =>
  cases h with
  | @cons _ _ _ d7 _ _ w7 _ l7 _ h7 h =>
  cases h
  obtain ⟨rfl, rfl, g1, i1, p, hp, f1⟩ := grows_lookup_of hw hr hn (by decide) (by rw [hcols]; decide) h1
  have c1 : d1.cols = "A_ID" :: abNew ++ ["CELL_A", "EXCITABILITY_A"] := by rw [g1.cols, hcols]; rfl
  obtain ⟨rfl, rfl, g2, i2, p', hp', f2⟩ := grows_lookup_of hw g1.rect g1.nodup (by decide)
    (by rw [c1]; decide) h2
  obtain rfl : p' = p := Option.some.inj (hp'.symm.trans hp)
  have c2 : d2.cols = "A_ID" :: abNew ++ ["CELL_A", "EXCITABILITY_A", "CELL_B", "EXCITABILITY_B"] := by
    rw [g2.cols, c1]; rfl
  obtain ⟨rfl, rfl, g3, i3, cp, hcp, f3⟩ := grows_lookup_of hw g2.rect g2.nodup (by decide)
    (by rw [c2]; decide) h3
  have c3 : d3.cols = "A_ID" :: abNew ++ ["CELL_A", "EXCITABILITY_A", "CELL_B", "EXCITABILITY_B",
      "CELL_A_HEALTH"] := by rw [g3.cols, c2]; rfl
  obtain ⟨rfl, rfl, g4, i4, cp', hcp', f4⟩ := grows_lookup_of hw g3.rect g3.nodup (by decide)
    (by rw [c3]; decide) h4
  obtain rfl : cp' = cp := Option.some.inj (hcp'.symm.trans hcp)
  have c4 : d4.cols = "A_ID" :: abNew ++ ["CELL_A", "EXCITABILITY_A", "CELL_B", "EXCITABILITY_B",
      "CELL_A_HEALTH", "CELL_B_HEALTH"] := by rw [g4.cols, c3]; rfl
  obtain ⟨rfl, g5, i5⟩ := grows_adder (.randomValuesFromField _ _) g4.rect g4.nodup (by rw [c4]; decide) h5
  have c5 : d5.cols = "A_ID" :: abNew ++ ["CELL_A", "EXCITABILITY_A", "CELL_B", "EXCITABILITY_B",
      "CELL_A_HEALTH", "CELL_B_HEALTH", "CELL_A_ACCEPTS"] := by rw [g5.cols, c4]; rfl
  obtain ⟨rfl, g6, i6⟩ := grows_adder (.randomValuesFromField _ _) g5.rect g5.nodup (by rw [c5]; decide) h6
  have c6 : d6.cols = "A_ID" :: abNew ++ ["CELL_A", "EXCITABILITY_A", "CELL_B", "EXCITABILITY_B",
      "CELL_A_HEALTH", "CELL_B_HEALTH", "CELL_A_ACCEPTS", "CELL_B_ACCEPTS"] := by rw [g6.cols, c5]; rfl
  obtain ⟨rfl, rfl, g7, i7, res7, k7, f7⟩ := grows_frame g6.rect g6.nodup (by rw [c6]; decide)
    (fun d r hd => by
      obtain ⟨⟨e1, e2, e3⟩, -⟩ := callStatus_ok hd
      exact ⟨e1, e2, by rw [e3]; decide, by rw [e3]; rfl⟩) h7
  have p5 := columnAdder_pops (env := env) (.randomValuesFromField _ _) h5
  have p6 := columnAdder_pops (env := env) (.randomValuesFromField _ _) h6
  have r5 := columnAdder_rels (env := env) (.randomValuesFromField _ _) h5
  have r6 := columnAdder_rels (env := env) (.randomValuesFromField _ _) h6
  refine ⟨by simp, p6.trans p5, r6.trans r5, (((g1.trans g2).trans (g3.trans g4)).trans (g5.trans g6)).trans g7,
    p', hp, fun i hi => ⟨?_, ?_⟩⟩
  · have j6 := g7.labels i hi
    have j5 := g6.labels i j6
    have j4 := g5.labels i j5
    have j3 := g4.labels i j4
    have j2 := g3.labels i j3
    have j1 := g2.labels i j2
    obtain ⟨a, a1, a2⟩ := f1 i j1 ("CELL", "CELL_A") (by decide)
    obtain ⟨b, b1, b2⟩ := f2 i j2 ("CELL", "CELL_B") (by decide)
    have hwf := hw p' (List.mem_of_getElem? hp)
    obtain rfl := attributeOf_unique hwf a1 b1
    have g27 := ((g3.trans g4).trans (g5.trans g6)).trans g7
    refine ⟨a, a1, ?_, ?_⟩
    · rw [(g2.trans g27).kept i hi _ (by rw [c1]; decide)]
      exact a2
    · rw [g27.kept i hi _ (by rw [c2]; decide), ← g1.kept i j1 "B_ID" (by rw [hcols]; decide)]
      exact b2
  · have j6 := g7.labels i hi
    obtain ⟨x, hx, rfl⟩ := mem_index.1 j6
    obtain ⟨k, hk⟩ := List.mem_iff_getElem?.1 hx
    have hf := (callStatus_ok k7).2
    rw [List.forall₂_map_left_iff] at hf
    have hlt := (List.getElem?_eq_some_iff.1 hk)
    have hlt' : k < res7.rows.length := hf.length_eq ▸ hlt.1
    have hy := List.getElem?_eq_getElem hlt'
    have := (List.forall₂_iff_get.1 hf).2 k hlt.1 hlt'
    rw [List.get_eq_getElem, List.get_eq_getElem, hlt.2, cellsOf_sources (by decide) (by decide),
      cellsOf_sources (by decide) (by decide)] at this
    obtain ⟨a, b, e1, e2, e3⟩ := this
    rw [← valueAt_row g6.nodup hx] at e1 e2
    have j5 := g6.labels _ j6
    have j4 := g5.labels _ j5
    have j3 := g4.labels _ j4
    obtain ⟨at_, k1, k2⟩ := f3 _ j3 ("HEALTH", "CELL_A_HEALTH") (by decide)
    obtain ⟨at', k1', k2'⟩ := f4 _ j4 ("HEALTH", "CELL_B_HEALTH") (by decide)
    obtain rfl := attributeOf_unique (hw cp' (List.mem_of_getElem? hcp)) k1 k1'
    have g47 := (g5.trans g6).trans g7
    refine ⟨a, b, cp', at_, valueAt d3 x.idx "CELL_A_HEALTH", valueAt d4 x.idx "CELL_B_HEALTH", ?_, hcp, k1, ?_, ?_,
      fun g hg => ?_, fun g hg => ?_⟩
    · rw [f7 k x _ hk hy "STATUS" (by decide), one_column e3]
    · rw [((g3.trans g4).trans g47).kept _ hi _ (by rw [c2]; decide)]
      exact k2
    · rw [(g4.trans g47).kept _ hi _ (by rw [c3]; decide)]
      exact k2'
    · have := answered_field g4.rect g4.nodup (by rw [c4]; decide) h5 hg x.idx j5
      rw [g4.kept _ j4 _ (by rw [c3]; decide), ← g6.kept _ j6 _ (by rw [c5]; decide), e1] at this
      exact this
    · have := answered_field g5.rect g5.nodup (by rw [c5]; decide) h6
        (began_op (F := fun _ => True) (Z := fun _ => True) (.adder (.randomValuesFromField _ _)) h5 hg) x.idx j6
      rw [g5.kept _ j5 _ (by rw [c4]; decide), e2] at this
      exact this

/-- the operations that set the accounts -/
theorem updateAccounts_runs {p : Population} {ac : Attribute} {cols : List String}
    (hp : w.pops[t.sims]? = some p) (hwf : Population.WF p) (hac : attributeOf p "MAIN_ACCT" ac)
    (hcols : data.cols = cols) (hc : "MAIN_ACCT_NEW" ∉ cols) (hsim : "SIM_A" ∈ cols)
    (hr : Rect data) (hn : data.index.Nodup) (h : Runs (updateAccounts t) data w out ls w') (env : Env σ γ) :
    (∀ l ∈ ls, l = []) ∧ w'.rels = w.rels ∧ (∀ k, k ≠ t.sims → w'.pops[k]? = w.pops[k]?) ∧
    Grows ["MAIN_ACCT_NEW"] data out ∧
    (∀ i ∈ out.index, arith (· - ·) (valueAt data i "MAIN_ACCT_OLD") (valueAt data i "VALUE") =
      .ok (valueAt out i "MAIN_ACCT_NEW")) ∧
    (∀ i ∈ out.index, ∀ j ∈ out.index, valueAt data i "SIM_A" = valueAt data j "SIM_A" → i = j) ∧
    ∃ p' ac', w'.pops[t.sims]? = some p' ∧ Population.WF p' ∧ p'.ids = p.ids ∧ attributeOf p' "MAIN_ACCT" ac' ∧
      (∀ n b, n ≠ "MAIN_ACCT" → (attributeOf p' n b ↔ attributeOf p n b)) ∧
      ∀ s c, Holds ac' s c ↔
        (∃ i ∈ out.index, valueAt data i "SIM_A" = .scalar s ∧ c = valueAt out i "MAIN_ACCT_NEW") ∨
        ((∀ i ∈ out.index, valueAt data i "SIM_A" ≠ .scalar s) ∧ Holds ac s c) := by
  rw [updateAccounts] at h
  cases h with
  | @cons _ _ _ d1 _ _ w1 _ l1 _ h1 h =>
  cases h with
  | @cons _ _ _ d2 _ _ w2 _ l2 _ h2 h =>
  cases h
  obtain ⟨rfl, rfl, g1, i1, values, hv, hadds⟩ := grows_series env hr hn (by rw [hcols]; exact hc) h1
  have hforall := arithColumns_ok hv
  have hval := valueAt_forall hn hadds hforall
  obtain ⟨rfl, rfl, k1, k2, -, k4, p', ac', q1, q2, q3, q4, q5, q6⟩ := attrUpdate_ok hp hwf hac g1.nodup h2
  have hsim' : ∀ i ∈ out.index, valueAt out i "SIM_A" = valueAt data i "SIM_A" :=
    fun i hi => g1.kept i hi _ (by rw [hcols]; exact hsim)
  refine ⟨by simp, k1, k2, g1, fun i hi => ?_, fun i hi j hj e => ?_, p', ac', q1, q2, q3, q4, q5,
    fun s c => ?_⟩
  · obtain ⟨x, hx, rfl⟩ := mem_index.1 (g1.labels i hi)
    rw [valueAt_row hn hx, valueAt_row hn hx]
    exact hval x hx
  · exact k4 i hi j hj (by rw [hsim' i hi, hsim' j hj, e])
  · rw [q6]
    constructor
    · rintro (⟨i, hi, e1, e2⟩ | ⟨e1, e2⟩)
      · exact .inl ⟨i, hi, by rw [← hsim' i hi]; exact e1, e2⟩
      · exact .inr ⟨fun i hi => by rw [← hsim' i hi]; exact e1 i hi, e2⟩
    · rintro (⟨i, hi, e1, e2⟩ | ⟨e1, e2⟩)
      · exact .inl ⟨i, hi, by rw [hsim' i hi]; exact e1, e2⟩
      · exact .inr ⟨fun i hi => by rw [hsim' i hi]; exact e1 i hi, e2⟩

theorem effect_same {op : Op (World σ γ)} {l : Logs} (hop : SideEffect env (fun _ => True) (fun _ => True) op)
    (h : op data w = .ok (out, l) w') : out = data ∧ l = [] := by
  have := sideEffect_spec hop h
  exact ⟨congrArg Prod.fst this, congrArg Prod.snd this⟩

theorem triggerTopups_runs {cols : List String} (hcols : data.cols = cols) (hc : "SHOULD_TOP_UP" ∉ cols)
    (hr : Rect data) (hn : data.index.Nodup) (h : Runs (triggerTopups env t) data w out ls w') :
    (∀ l ∈ ls, l = []) ∧ (∀ k : Nat, w'.pops[k]? = w.pops[k]?) ∧ out.index = data.index ∧ Grows ["SHOULD_TOP_UP"] data out := by
  have hk : ∀ k : Nat, w'.pops[k]? = w.pops[k]? := by
    refine fun k => Snd.runs_keepsPop (fun op hop => ?_) h
    simp only [triggerTopups, List.mem_cons, List.not_mem_nil, or_false] at hop
    rcases hop with rfl | rfl
    · exact .adder (.randomValuesFromField _ _)
    · exact .forceActNext
  rw [triggerTopups] at h
  cases h with
  | @cons _ _ _ d1 _ _ w1 _ l1 _ h1 h =>
  cases h with
  | @cons _ _ _ d2 _ _ w2 _ l2 _ h2 h =>
  cases h
  obtain ⟨rfl, g1, i1⟩ := grows_adder (.randomValuesFromField _ _) hr hn (by rw [hcols]; exact hc) h1
  obtain ⟨rfl, rfl⟩ := effect_same (env := env) (.forceActNext _ _ _ trivial) h2
  exact ⟨by simp, hk, i1, g1⟩

/-- the fields added by `get_bursty` -/
def burstyNew : List String := ["A_GETTING_BURSTY", "B_GETTING_BURSTY"]

theorem getBursty_runs {cols : List String} (hcols : data.cols = cols) (hc : ∀ c ∈ burstyNew, c ∉ cols)
    (hr : Rect data) (hn : data.index.Nodup) (h : Runs (getBursty env t) data w out ls w') :
    (∀ l ∈ ls, l = []) ∧ (∀ k : Nat, w'.pops[k]? = w.pops[k]?) ∧ out.index = data.index ∧ Grows burstyNew data out := by
  have hk : ∀ k : Nat, w'.pops[k]? = w.pops[k]? := by
    refine fun k => Snd.runs_keepsPop (fun op hop => ?_) h
    simp only [getBursty, List.mem_cons, List.not_mem_nil, or_false] at hop
    rcases hop with rfl | rfl | rfl | rfl | rfl | rfl | rfl | rfl
    · exact .adder (.randomValuesFromField _ _)
    · exact .transitToState
    · exact .transitToState
    · exact .adder (.randomValuesFromField _ _)
    · exact .transitToState
    · exact .transitToState
    · exact .resetTimers
    · exact .resetTimers
  rw [getBursty] at h
  cases h with
  | @cons _ _ _ d1 _ _ w1 _ l1 _ h1 h =>
  cases h with
  | @cons _ _ _ d2 _ _ w2 _ l2 _ h2 h =>
  cases h with
  | @cons _ _ _ d3 _ _ w3 _ l3 _ h3 h =>
  cases h with
  | @cons _ _ _ d4 _ _ w4 _ l4 _ h4 h =>
  cases h with
  | @cons _ _ _ d5 _ _ w5 _ l5 _ h5 h =>
  cases h with
  | @cons _ _ _ d6 _ _ w6 _ l6 _ h6 h =>
  cases h with
  | @cons _ _ _ d7 _ _ w7 _ l7 _ h7 h =>
  cases h with
  | @cons _ _ _ d8 _ _ w8 _ l8 _ h8 h =>
  cases h
  obtain ⟨rfl, g1, i1⟩ := grows_adder (.randomValuesFromField _ _) hr hn
    (by rw [hcols]; exact hc _ (by decide)) h1
  obtain ⟨rfl, rfl⟩ := effect_same (env := env) (.transitToState _ _ _ _) h2
  obtain ⟨rfl, rfl⟩ := effect_same (env := env) (.transitToState _ _ _ _) h3
  obtain ⟨rfl, g4, i4⟩ := grows_adder (.randomValuesFromField _ _) g1.rect g1.nodup
    (by rw [g1.cols, hcols, List.mem_append]
        exact fun hm => hm.elim (hc _ (by decide)) (by decide)) h4
  obtain ⟨rfl, rfl⟩ := effect_same (env := env) (.transitToState _ _ _ _) h5
  obtain ⟨rfl, rfl⟩ := effect_same (env := env) (.transitToState _ _ _ _) h6
  obtain ⟨rfl, rfl⟩ := effect_same (env := env) (.resetTimers _ _ trivial) h7
  obtain ⟨rfl, rfl⟩ := effect_same (env := env) (.resetTimers _ _ trivial) h8
  exact ⟨by simp, hk, i4.trans i1, g1.trans g4⟩

/-- what is logged: each row is a row of the data, with the same label -/
theorem logged_rows {logId : String} {cols : List String} {l : Logs} (hcols : cols ≠ [])
    (hn : data.index.Nodup) (h : Ops.fieldLogger logId cols [] data w = .ok (out, l) w') :
    w' = w ∧ out = data ∧ ∃ tbl, l = [(logId, tbl)] ∧ tbl.index = data.index ∧
      ∀ r ∈ tbl.rows, ∀ c ∈ cols, cell tbl r c = valueAt data r.idx c := by
  obtain ⟨logged, h1, h2, rfl⟩ := fieldLogger_eq_ok.1 h
  cases h2
  refine ⟨rfl, rfl, logged, rfl, ?_⟩
  simp only [Ops.loggedData, Ops.explode, Ops.loggerCols, List.append_nil, if_true] at h1
  replace h1 : (if cols = [] then Except.ok data else data.select cols) = .ok logged := h1
  rw [if_neg hcols] at h1
  obtain ⟨e1, e2⟩ := Frame.select_ok h1
  constructor
  · rw [Frame.index, e2, List.map_map, Frame.index]
    rfl
  · intro r hr c hc
    rw [e2] at hr
    obtain ⟨x, hx, rfl⟩ := List.mem_map.1 hr
    rw [valueAt_row hn hx, cell, e1]
    have : ∀ l : List String, c ∈ l → (l.zip (l.map (cell data x))).find?
        (fun x => decide (x.1 = c)) = some (c, cell data x c) := by
      intro l hl
      induction l with
      | nil => simp at hl
      | cons n l ih =>
        simp only [List.map_cons, List.zip_cons_cons, List.find?_cons]
        by_cases hn : n = c
        · simp [hn]
        · simp only [hn, decide_false]
          exact ih ((List.mem_cons.1 hl).resolve_left fun e => hn e.symm)
    simp only [this cols hc]

/-- What one execution of a story of calls or messages does. `f` is the data at the end, `tbl` the logged table,
`p'` the SIMs and `ac'` their accounts afterwards. `value` says what the field `VALUE` is, `J` what is said of the
health of cells. -/
structure TalkRun (t : Talk) (J : Cell → Bool → Prop) (logId : String) (cols : List String)
    (value : (String → Cell) → Prop)
    (data : Frame) (P P' : List Population) (p : Population) (ao am ac : Attribute) (fr sr : List (Val × Val × Rat))
    (ls : List Logs) (f tbl : Frame) (p' : Population) (ac' : Attribute) : Prop where
  logged : ls.filterMap (·.get? logId) = [tbl]
  quiet : ∀ id, id ≠ logId → ls.filterMap (·.get? id) = []
  index : tbl.index = f.index
  nodup : f.index.Nodup
  labels : ∀ i ∈ f.index, i ∈ data.index
  rows : ∀ r ∈ tbl.rows, ∀ c ∈ cols, cell tbl r c = valueAt f r.idx c
  dialled : ∀ i ∈ f.index, ∃ x : Talkers, x.a = i ∧ Dialled ao am ac fr sr (valueAt f i) x
  callees : ∀ i ∈ f.index, ∀ j ∈ f.index, ∀ b, b ≠ .na → valueAt f i "B_ID" = .scalar b →
    valueAt f j "B_ID" = .scalar b → i = j
  value : ∀ i ∈ f.index, value (valueAt f i)
  places : ∃ q, P[t.subs]? = some q ∧ ∀ i ∈ f.index, ∃ a, attributeOf q "CELL" a ∧
    Holds a i (valueAt f i "CELL_A") ∧ ∀ b, valueAt f i "B_ID" = .scalar b → Holds a b (valueAt f i "CELL_B")
  status : ∀ i ∈ f.index, Judged P t.cells J (valueAt f i)
  new : ∀ i ∈ f.index, arith (· - ·) (valueAt f i "MAIN_ACCT_OLD") (valueAt f i "VALUE") =
    .ok (valueAt f i "MAIN_ACCT_NEW")
  sims : ∀ i ∈ f.index, ∀ j ∈ f.index, valueAt f i "SIM_A" = valueAt f j "SIM_A" → i = j
  others : ∀ k, k ≠ t.sims → P'[k]? = P[k]?
  pop : P'[t.sims]? = some p'
  wf : Population.WF p'
  ids : p'.ids = p.ids
  acct : attributeOf p' "MAIN_ACCT" ac'
  attrs : ∀ n b, n ≠ "MAIN_ACCT" → (attributeOf p' n b ↔ attributeOf p n b)
  accounts : ∀ s c, Holds ac' s c ↔
    (∃ i ∈ f.index, valueAt f i "SIM_A" = .scalar s ∧ c = valueAt f i "MAIN_ACCT_NEW") ∨
    ((∀ i ∈ f.index, valueAt f i "SIM_A" ≠ .scalar s) ∧ Holds ac s c)

/-- the first two groups of operations -/
theorem head_runs {p : Population} {ao am ac : Attribute} {rf rs : Relationship σ} (o : Orders)
    (hw : ∀ p ∈ w.pops, Population.WF p)
    (hp : w.pops[t.sims]? = some p) (hao : attributeOf p "OPERATOR" ao)
    (ham : attributeOf p "MSISDN" am) (hac : attributeOf p "MAIN_ACCT" ac)
    (hrf : w.rels[t.friends]? = some rf) (hreach : Relationship.Reachable env.R rf)
    (hrs : w.rels[t.simsOf]? = some rs) (hne : t.friends ≠ t.simsOf)
    (hcols : data.cols = ["A_ID"]) (hr : Rect data) (hn : data.index.Nodup)
    (hid : ∀ i ∈ data.index, valueAt data i "A_ID" = .scalar i)
    (h : Runs [nested env (abFields env fmt t), nested env (cellStatus env t)] data w out ls w') :
    (∀ l ∈ ls, l = []) ∧ w'.pops = w.pops ∧ Grows (abNew ++ statusNew) data out ∧
    (∀ i ∈ out.index, ∃ x : Talkers, x.a = i ∧
      Dialled ao am ac (rf.get_relations o) (rs.get_relations o) (valueAt out i) x) ∧
    (∀ i ∈ out.index, ∀ j ∈ out.index, ∀ b, b ≠ .na → valueAt out i "B_ID" = .scalar b →
      valueAt out j "B_ID" = .scalar b → i = j) ∧
    (∃ q, w.pops[t.subs]? = some q ∧ ∀ i ∈ out.index, ∃ a, attributeOf q "CELL" a ∧
      Holds a i (valueAt out i "CELL_A") ∧
      ∀ b, valueAt out i "B_ID" = .scalar b → Holds a b (valueAt out i "CELL_B")) ∧
    ∀ i ∈ out.index, Judged w.pops t.cells (Verdict env w t.flatTrigger) (valueAt out i) := by
  cases h with
  | @cons _ _ _ d1 _ _ w1 _ l1 _ h1 h =>
  cases h with
  | @cons _ _ _ d2 _ _ w2 _ l2 _ h2 h =>
  cases h
  obtain ⟨ls1, h1, e1⟩ := nested_ok h1
  obtain ⟨ls2, h2, e2⟩ := nested_ok h2
  have hwf := hw p (List.mem_of_getElem? hp)
  obtain ⟨a1, a2, a3, a4, a5⟩ := abFields_runs o hp hwf hao ham hac hrf hreach hrs hne hcols hr hn hid h1
  have c1 : d1.cols = "A_ID" :: abNew := by rw [a3.cols, hcols]; rfl
  obtain ⟨b1, b2, -, b3, q, hq, b4⟩ := cellStatus_runs (by rw [a2]; exact hw) c1 a3.rect a3.nodup h2
  have hkept : ∀ i ∈ out.index, ∀ c ∈ abNew, valueAt out i c = valueAt d1 i c := fun i hi c hc =>
    b3.kept i hi c (by rw [c1]; exact List.mem_cons_of_mem _ hc)
  refine ⟨?_, b2.trans a2, a3.trans b3, fun i hi => ?_, fun i hi j hj b hb k1 k2 => ?_,
    ⟨q, by rw [← a2]; exact hq, fun i hi => ?_⟩, fun i hi => ?_⟩
  · intro l hl
    simp only [List.mem_cons, List.not_mem_nil, or_false] at hl
    rcases hl with rfl | rfl
    · exact e1 a1
    · exact e2 b1
  · obtain ⟨x, hx, hd⟩ := a4 i (b3.labels i hi)
    refine ⟨x, hx, hd.congr fun c hc => hkept i hi c ?_⟩
    revert c hc
    decide
  · rw [hkept i hi _ (by decide)] at k1
    rw [hkept j hj _ (by decide)] at k2
    exact a5 i (b3.labels i hi) j (b3.labels j hj) b hb k1 k2
  · obtain ⟨a, ha, k1, k2⟩ := (b4 i hi).1
    have hA : valueAt d1 i "A_ID" = .scalar i := by
      rw [a3.kept i (b3.labels i hi) _ (by rw [hcols]; decide)]
      exact hid i (a3.labels i (b3.labels i hi))
    rw [hA] at k1
    refine ⟨a, ha, k1, fun b hb => ?_⟩
    rw [hkept i hi _ (by decide)] at hb
    rw [hb] at k2
    exact k2
  · have := (b4 i hi).2
    rw [a2] at this
    exact this.imp fun h b hv g hg => hv g (began_runs (F := fun _ => True) (fun op hop => (abFields_fine t op hop).1) h1 hg)

/-- the operations after the value is known -/
theorem tail_runs {p : Population} {ac : Attribute} {logId : String} {cols extra : List String} {own : Nat}
    (hp : w.pops[t.sims]? = some p) (hwf : Population.WF p) (hac : attributeOf p "MAIN_ACCT" ac)
    (hcols : data.cols = "A_ID" :: (abNew ++ statusNew) ++ extra) (hlog : cols ≠ [])
    (hnew : ∀ c ∈ ["MAIN_ACCT_NEW", "SHOULD_TOP_UP"] ++ burstyNew, c ∉ extra) (hval : "VALUE" ∈ extra)
    (hr : Rect data) (hn : data.index.Nodup)
    (h : Runs [nested env (updateAccounts t), nested env (triggerTopups env t), nested env (getBursty env t),
      Ops.fieldLogger logId cols [], Ops.maybeBackToDefault env own] data w out ls w') :
    ∃ tbl, ls = [[], [], [], [(logId, tbl)], []] ∧ tbl.index = out.index ∧
    (∀ r ∈ tbl.rows, ∀ c ∈ cols, cell tbl r c = valueAt out r.idx c) ∧
    Grows (["MAIN_ACCT_NEW", "SHOULD_TOP_UP"] ++ burstyNew) data out ∧
    (∀ i ∈ out.index, arith (· - ·) (valueAt out i "MAIN_ACCT_OLD") (valueAt out i "VALUE") =
      .ok (valueAt out i "MAIN_ACCT_NEW")) ∧
    (∀ i ∈ out.index, ∀ j ∈ out.index, valueAt out i "SIM_A" = valueAt out j "SIM_A" → i = j) ∧
    (∀ k, k ≠ t.sims → w'.pops[k]? = w.pops[k]?) ∧
    ∃ p' ac', w'.pops[t.sims]? = some p' ∧ Population.WF p' ∧ p'.ids = p.ids ∧ attributeOf p' "MAIN_ACCT" ac' ∧
      (∀ n b, n ≠ "MAIN_ACCT" → (attributeOf p' n b ↔ attributeOf p n b)) ∧
      ∀ s c, Holds ac' s c ↔
        (∃ i ∈ out.index, valueAt out i "SIM_A" = .scalar s ∧ c = valueAt out i "MAIN_ACCT_NEW") ∨
        ((∀ i ∈ out.index, valueAt out i "SIM_A" ≠ .scalar s) ∧ Holds ac s c) := by
  cases h with
  | @cons _ _ _ d1 _ _ w1 _ l1 _ h1 h =>
  cases h with
  | @cons _ _ _ d2 _ _ w2 _ l2 _ h2 h =>
  cases h with
  | @cons _ _ _ d3 _ _ w3 _ l3 _ h3 h =>
  cases h with
  | @cons _ _ _ d4 _ _ w4 _ l4 _ h4 h =>
  cases h with
  | @cons _ _ _ d5 _ _ w5 _ l5 _ h5 h =>
  cases h
  obtain ⟨ls1, h1, e1⟩ := nested_ok h1
  obtain ⟨ls2, h2, e2⟩ := nested_ok h2
  obtain ⟨ls3, h3, e3⟩ := nested_ok h3
  have hout : ∀ n ∈ ["MAIN_ACCT_NEW", "SHOULD_TOP_UP"] ++ burstyNew, n ∉ data.cols := by
    intro n hn' hm
    rw [hcols, List.mem_append] at hm
    have key : ∀ n ∈ ["MAIN_ACCT_NEW", "SHOULD_TOP_UP"] ++ burstyNew, n ∉ "A_ID" :: (abNew ++ statusNew) := by
      decide
    exact hm.elim (key n hn') (hnew n hn')
  have hmem : ∀ n ∈ talkFields, n ∈ data.cols := by
    intro n hn'
    rw [hcols, List.mem_append]
    left
    revert n
    decide
  have hv : "VALUE" ∈ data.cols := by rw [hcols]; exact List.mem_append_right _ hval
  obtain ⟨a1, -, a3, a4, a5, a6, p', ac', q1, q2, q3, q4, q5, q6⟩ := updateAccounts_runs hp hwf hac rfl
    (hout _ (by decide)) (hmem _ (by decide)) hr hn h1 env
  obtain ⟨b1, b2, ib, b3⟩ := triggerTopups_runs (cols := data.cols ++ ["MAIN_ACCT_NEW"]) a4.cols
    (by rw [List.mem_append]; exact fun hm => hm.elim (hout _ (by decide)) (by decide)) a4.rect a4.nodup h2
  obtain ⟨c1, c2, ic, c3⟩ := getBursty_runs (cols := data.cols ++ ["MAIN_ACCT_NEW"] ++ ["SHOULD_TOP_UP"])
    (by rw [b3.cols, a4.cols]) (by
      intro c hc hm
      rw [List.append_assoc, List.mem_append] at hm
      have key : ∀ c ∈ burstyNew, c ∉ ["MAIN_ACCT_NEW"] ++ ["SHOULD_TOP_UP"] := by decide
      exact hm.elim (hout c (List.mem_append_right _ hc)) (key c hc)) b3.rect b3.nodup h3
  obtain ⟨rfl, rfl, tbl, rfl, f1, f2⟩ := logged_rows hlog c3.nodup h4
  obtain ⟨rfl, rfl⟩ := effect_same (env := env) (.maybeBackToDefault _) h5
  have hpops : ∀ k : Nat, w'.pops[k]? = w1.pops[k]? := fun k => by
    rw [Snd.KeepsPop.maybeBack (env := env) out _ _ _ h5, c2, b2]
  have gtail : Grows (["SHOULD_TOP_UP"] ++ burstyNew) d1 out := b3.trans c3
  have hlab : ∀ i ∈ out.index, i ∈ d1.index := gtail.labels
  have hk1 : ∀ i ∈ out.index, valueAt out i "MAIN_ACCT_NEW" = valueAt d1 i "MAIN_ACCT_NEW" := fun i hi =>
    gtail.kept i hi _ (by rw [a4.cols]; simp)
  have gall := a4.trans gtail
  have hk0 : ∀ i ∈ out.index, ∀ c ∈ data.cols, valueAt out i c = valueAt data i c := gall.kept
  have hidx : ∀ i, i ∈ out.index ↔ i ∈ d1.index := fun i => by rw [ic, ib]
  refine ⟨tbl, by rw [e1 a1, e2 b1, e3 c1], f1, f2, gall, fun i hi => ?_, fun i hi j hj e => ?_,
    fun k hk => (hpops k).trans (a3 k hk), p', ac', by rw [hpops]; exact q1, q2, q3, q4, q5, fun s c => ?_⟩
  · rw [hk0 i hi _ (hmem _ (by decide)), hk0 i hi _ hv, hk1 i hi]
    exact a5 i (hlab i hi)
  · rw [hk0 i hi _ (hmem _ (by decide)), hk0 j hj _ (hmem _ (by decide))] at e
    exact a6 i (hlab i hi) j (hlab j hj) e
  · rw [q6]
    have hs : ∀ i ∈ out.index, valueAt out i "SIM_A" = valueAt data i "SIM_A" :=
      fun i hi => hk0 i hi _ (hmem _ (by decide))
    constructor
    · rintro (⟨i, hi, k1, k2⟩ | ⟨k1, k2⟩)
      · have hi' := (hidx i).2 hi
        exact .inl ⟨i, hi', by rw [hs i hi']; exact k1, by rw [hk1 i hi']; exact k2⟩
      · exact .inr ⟨fun i hi => by rw [hs i hi]; exact k1 i (hlab i hi), k2⟩
    · rintro (⟨i, hi, k1, k2⟩ | ⟨k1, k2⟩)
      · exact .inl ⟨i, hlab i hi, by rw [← hs i hi]; exact k1, by rw [← hk1 i hi]; exact k2⟩
      · exact .inr ⟨fun i hi => by
          have hi' := (hidx i).2 hi
          rw [← hs i hi']; exact k1 i hi', k2⟩

/-- the logged fields of the calls and of the messages (test_cdr.py:562-568, 585-591) -/
def callLog : List String := ["DATETIME", "MSISDN_A", "MSISDN_B", "STATUS", "DURATION", "VALUE", "CELL_A",
  "OPERATOR_A", "CELL_B", "OPERATOR_B", "TYPE", "PRODUCT"]
def smsLog : List String := ["DATETIME", "MSISDN_A", "MSISDN_B", "STATUS", "VALUE", "CELL_A",
  "OPERATOR_A", "CELL_B", "OPERATOR_B", "TYPE", "PRODUCT"]

theorem talk_of {p : Population} {ao am ac : Attribute} {fr sr : List (Val × Val × Rat)} {logId : String}
    {cols extra : List String} {own : Nat} {value : (String → Cell) → Prop} {d1 d2 : Frame} {w1 w2 : World σ γ}
    {l1 l2 l3 : List Logs} (hw : ∀ p ∈ w.pops, Population.WF p)
    (hp : w.pops[t.sims]? = some p) (hac : attributeOf p "MAIN_ACCT" ac) (hlog : cols ≠ [])
    (hcols : data.cols = ["A_ID"])
    (hnew : ∀ c ∈ ["MAIN_ACCT_NEW", "SHOULD_TOP_UP"] ++ burstyNew, c ∉ extra) (hval : "VALUE" ∈ extra)
    (hvalue : ∀ v v' : String → Cell, (∀ c ∈ extra, v' c = v c) → value v → value v')
    (e1 : (∀ l ∈ l1, l = []) ∧ w1.pops = w.pops ∧ Grows (abNew ++ statusNew) data d1 ∧
      (∀ i ∈ d1.index, ∃ x : Talkers, x.a = i ∧ Dialled ao am ac fr sr (valueAt d1 i) x) ∧
      (∀ i ∈ d1.index, ∀ j ∈ d1.index, ∀ b, b ≠ .na → valueAt d1 i "B_ID" = .scalar b →
        valueAt d1 j "B_ID" = .scalar b → i = j) ∧
      (∃ q, w.pops[t.subs]? = some q ∧ ∀ i ∈ d1.index, ∃ a, attributeOf q "CELL" a ∧
        Holds a i (valueAt d1 i "CELL_A") ∧
        ∀ b, valueAt d1 i "B_ID" = .scalar b → Holds a b (valueAt d1 i "CELL_B")) ∧
      ∀ i ∈ d1.index, Judged w.pops t.cells (Verdict env w t.flatTrigger) (valueAt d1 i))
    (e2 : (∀ l ∈ l2, l = []) ∧ w2.pops = w1.pops ∧ Grows extra d1 d2 ∧ ∀ i ∈ d2.index, value (valueAt d2 i))
    (h : Runs [nested env (updateAccounts t), nested env (triggerTopups env t), nested env (getBursty env t),
      Ops.fieldLogger logId cols [], Ops.maybeBackToDefault env own] d2 w2 out l3 w') :
    ∃ tbl p' ac', TalkRun t (Verdict env w t.flatTrigger) logId cols value data w.pops w'.pops p ao am ac fr sr (l1 ++ (l2 ++ l3)) out tbl p' ac' := by
  obtain ⟨a1, a2, a3, a4, a5, a6, a7⟩ := e1
  obtain ⟨b1, b2, b3, b4⟩ := e2
  have c1 : d1.cols = "A_ID" :: (abNew ++ statusNew) := by rw [a3.cols, hcols]; rfl
  have c2 : d2.cols = "A_ID" :: (abNew ++ statusNew) ++ extra := by rw [b3.cols, c1]
  obtain ⟨tbl, rfl, f1, f2, f3, f4, f5, f6, p', ac', q1, q2, q3, q4, q5, q6⟩ := tail_runs
    (by rw [b2, a2]; exact hp) (hw p (List.mem_of_getElem? hp)) hac c2 hlog hnew hval b3.rect b3.nodup h
  have g := b3.trans f3
  have hk : ∀ i ∈ out.index, ∀ c ∈ abNew ++ statusNew, valueAt out i c = valueAt d1 i c := fun i hi c hc =>
    g.kept i hi c (by rw [c1]; exact List.mem_cons_of_mem _ hc)
  have hq : ∀ {id : String} {l : List Logs}, (∀ x ∈ l, x = []) → l.filterMap (·.get? id) = [] := by
    intro id l hl
    rw [List.filterMap_eq_nil_iff]
    intro x hx
    rw [hl x hx]
    rfl
  refine ⟨tbl, p', ac', ⟨?_, ?_, f1, g.nodup, fun i hi => a3.labels i (g.labels i hi), f2, fun i hi => ?_,
    fun i hi j hj b hb k1 k2 => ?_, fun i hi => ?_, ?_, fun i hi => ?_, f4, f5,
    fun k hk => by rw [f6 k hk, b2, a2], q1, q2, q3, q4, q5, q6⟩⟩
  · rw [List.filterMap_append, List.filterMap_append, hq a1, hq b1]
    simp [List.filterMap_cons, Dict.get?]
  · intro id hid
    rw [List.filterMap_append, List.filterMap_append, hq a1, hq b1]
    simp [List.filterMap_cons, Dict.get?, Ne.symm hid]
  · obtain ⟨x, hx, hd⟩ := a4 i (g.labels i hi)
    refine ⟨x, hx, hd.congr fun c hc => hk i hi c ?_⟩
    revert c hc
    decide
  · rw [hk i hi _ (by decide)] at k1
    rw [hk j hj _ (by decide)] at k2
    exact a5 i (g.labels i hi) j (g.labels j hj) b hb k1 k2
  · refine hvalue _ _ (fun c hc => ?_) (b4 i (f3.labels i hi))
    exact f3.kept i hi c (by rw [c2]; exact List.mem_append_right _ hc)
  · obtain ⟨q, hq, hc⟩ := a6
    refine ⟨q, hq, fun i hi => ?_⟩
    rw [hk i hi _ (by decide), hk i hi "B_ID" (by decide), hk i hi "CELL_B" (by decide)]
    exact hc i (g.labels i hi)
  · refine (a7 i (g.labels i hi)).congr fun c hc => hk i hi c ?_
    revert c hc
    decide

/-- the product, the duration and the value of the calls -/
theorem callMid_runs {d1 d2 : Frame} {w1 w2 : World σ γ} {l2 : List Logs} (hr : Rect d1) (hn : d1.index.Nodup)
    (c1 : d1.cols = "A_ID" :: (abNew ++ statusNew))
    (h2 : Runs [Ops.randomValues env (.constant (.str "VOICE")) "PRODUCT" none,
      Ops.randomValues env t.durations "DURATION" none,
      Ops.applyFrame ["DURATION", "DATETIME", "TYPE"] ["VALUE"] callValue] d1 w1 d2 l2 w2) :
    (∀ l ∈ l2, l = []) ∧ w2.pops = w1.pops ∧ Grows ["PRODUCT", "DURATION", "VALUE"] d1 d2 ∧
      ∀ i ∈ d2.index, doubled (valueAt d2 i "DURATION") = .ok (valueAt d2 i "VALUE") := by
  cases h2 with
  | @cons _ _ _ m1 _ _ u1 _ k1 _ h1 h2 =>
  cases h2 with
  | @cons _ _ _ m2 _ _ u2 _ k2 _ h2 h4 =>
  cases h4 with
  | @cons _ _ _ m3 _ _ u3 _ k3 _ h4 h5 =>
  cases h5
  obtain ⟨rfl, q1, i1⟩ := grows_adder (.randomValues _ _) hr hn (by rw [c1]; decide) h1
  have cm1 : m1.cols = "A_ID" :: (abNew ++ statusNew) ++ ["PRODUCT"] := by rw [q1.cols, c1]
  obtain ⟨rfl, q2, i2⟩ := grows_adder (.randomValues _ _) q1.rect q1.nodup (by rw [cm1]; decide) h2
  have cm2 : m2.cols = "A_ID" :: (abNew ++ statusNew) ++ ["PRODUCT"] ++ ["DURATION"] := by rw [q2.cols, cm1]
  obtain ⟨rfl, rfl, q3, i3, res, k7, f7⟩ := grows_frame q2.rect q2.nodup (by rw [cm2]; decide)
    (fun d r hd => by
      obtain ⟨⟨e1, e2, e3⟩, -⟩ := callValue_ok hd
      exact ⟨e1, e2, by rw [e3]; decide, by rw [e3]; rfl⟩) h4
  refine ⟨by simp, (columnAdder_pops (env := env) (.randomValues _ _) h2).trans
    (columnAdder_pops (env := env) (.randomValues _ _) h1), (q1.trans q2).trans q3, fun i hi => ?_⟩
  obtain ⟨x, hx, rfl⟩ := mem_index.1 (q3.labels i hi)
  obtain ⟨k, hk⟩ := List.mem_iff_getElem?.1 hx
  have hf := (callValue_ok k7).2
  rw [List.forall₂_map_left_iff] at hf
  have hlt := (List.getElem?_eq_some_iff.1 hk)
  have hlt' : k < res.rows.length := hf.length_eq ▸ hlt.1
  have hy := List.getElem?_eq_getElem hlt'
  have := (List.forall₂_iff_get.1 hf).2 k hlt.1 hlt'
  rw [List.get_eq_getElem, List.get_eq_getElem, hlt.2, cellsOf_sources (by decide) (by decide)] at this
  obtain ⟨c, e2, e3⟩ := this
  rw [f7 k x _ hk hy "VALUE" (by decide), one_column e3, q3.kept _ hi _ (by rw [cm2]; decide),
    valueAt_row q2.nodup hx, e2]

/-- **one execution of the story of the calls** -/
theorem callOps_runs {p : Population} {ao am ac : Attribute} {rf rs : Relationship σ} (o : Orders)
    (hw : ∀ p ∈ w.pops, Population.WF p)
    (hp : w.pops[t.sims]? = some p) (hao : attributeOf p "OPERATOR" ao)
    (ham : attributeOf p "MSISDN" am) (hac : attributeOf p "MAIN_ACCT" ac)
    (hrf : w.rels[t.friends]? = some rf) (hreach : Relationship.Reachable env.R rf)
    (hrs : w.rels[t.simsOf]? = some rs) (hne : t.friends ≠ t.simsOf)
    (hcols : data.cols = ["A_ID"]) (hr : Rect data) (hn : data.index.Nodup)
    (hid : ∀ i ∈ data.index, valueAt data i "A_ID" = .scalar i)
    (h : Runs (callOps env fmt t) data w out ls w') :
    ∃ tbl p' ac', TalkRun t (Verdict env w t.flatTrigger) "voice_cdr" callLog (fun v => doubled (v "DURATION") = .ok (v "VALUE"))
      data w.pops w'.pops p ao am ac (rf.get_relations o) (rs.get_relations o) ls out tbl p' ac' := by
  rw [callOps] at h
  obtain ⟨d1, w1, l1, lb, h1, h', rfl⟩ := runs_split (a := [_, _]) h
  obtain ⟨d2, w2, l2, l3, h2, h3, rfl⟩ := runs_split (a := [_, _, _]) h'
  have e1 := head_runs o hw hp hao ham hac hrf hreach hrs hne hcols hr hn hid h1
  have g1 := e1.2.2.1
  have c1 : d1.cols = "A_ID" :: (abNew ++ statusNew) := by rw [g1.cols, hcols]; rfl
  refine talk_of (extra := ["PRODUCT", "DURATION", "VALUE"]) hw hp hac (by decide) hcols (by decide) (by decide)
    (fun v v' hv hd => ?_) e1 (callMid_runs g1.rect g1.nodup c1 h2) h3
  · rw [hv _ (by decide), hv "VALUE" (by decide)]
    exact hd

/-- the product and the value of the messages -/
theorem smsMid_runs {d1 d2 : Frame} {w1 w2 : World σ γ} {l2 : List Logs} (hr : Rect d1) (hn : d1.index.Nodup)
    (c1 : d1.cols = "A_ID" :: (abNew ++ statusNew))
    (h2 : Runs [Ops.randomValues env (.constant (.str "SMS")) "PRODUCT" none,
      Ops.applyFrame ["DATETIME", "TYPE"] ["VALUE"] smsValue] d1 w1 d2 l2 w2) :
    (∀ l ∈ l2, l = []) ∧ w2.pops = w1.pops ∧ Grows ["PRODUCT", "VALUE"] d1 d2 ∧
      ∀ i ∈ d2.index, valueAt d2 i "VALUE" = .num 10 := by
  cases h2 with
  | @cons _ _ _ m1 _ _ u1 _ k1 _ h1 h2 =>
  cases h2 with
  | @cons _ _ _ m2 _ _ u2 _ k2 _ h2 h4 =>
  cases h4
  obtain ⟨rfl, q1, i1⟩ := grows_adder (.randomValues _ _) hr hn (by rw [c1]; decide) h1
  have cm1 : m1.cols = "A_ID" :: (abNew ++ statusNew) ++ ["PRODUCT"] := by rw [q1.cols, c1]
  obtain ⟨rfl, rfl, q3, i3, res, k7, f7⟩ := grows_frame q1.rect q1.nodup (by rw [cm1]; decide)
    (fun d r hd => by
      obtain ⟨⟨e1, e2, e3⟩, -⟩ := smsValue_ok hd
      exact ⟨e1, e2, by rw [e3]; decide, by rw [e3]; rfl⟩) h2
  refine ⟨by simp, columnAdder_pops (env := env) (.randomValues _ _) h1, q1.trans q3, fun i hi => ?_⟩
  obtain ⟨x, hx, rfl⟩ := mem_index.1 (q3.labels i hi)
  obtain ⟨k, hk⟩ := List.mem_iff_getElem?.1 hx
  have hf := (smsValue_ok k7).2
  rw [List.forall₂_map_left_iff] at hf
  have hlt := (List.getElem?_eq_some_iff.1 hk)
  have hlt' : k < res.rows.length := hf.length_eq ▸ hlt.1
  have hy := List.getElem?_eq_getElem hlt'
  have := (List.forall₂_iff_get.1 hf).2 k hlt.1 hlt'
  rw [f7 k x _ hk hy "VALUE" (by decide)]
  exact one_column this

/-- **one execution of the story of the messages** -/
theorem smsOps_runs {p : Population} {ao am ac : Attribute} {rf rs : Relationship σ} (o : Orders)
    (hw : ∀ p ∈ w.pops, Population.WF p)
    (hp : w.pops[t.sims]? = some p) (hao : attributeOf p "OPERATOR" ao)
    (ham : attributeOf p "MSISDN" am) (hac : attributeOf p "MAIN_ACCT" ac)
    (hrf : w.rels[t.friends]? = some rf) (hreach : Relationship.Reachable env.R rf)
    (hrs : w.rels[t.simsOf]? = some rs) (hne : t.friends ≠ t.simsOf)
    (hcols : data.cols = ["A_ID"]) (hr : Rect data) (hn : data.index.Nodup)
    (hid : ∀ i ∈ data.index, valueAt data i "A_ID" = .scalar i)
    (h : Runs (smsOps env fmt t) data w out ls w') :
    ∃ tbl p' ac', TalkRun t (Verdict env w t.flatTrigger) "sms_cdr" smsLog (fun v => v "VALUE" = .num 10)
      data w.pops w'.pops p ao am ac (rf.get_relations o) (rs.get_relations o) ls out tbl p' ac' := by
  rw [smsOps] at h
  obtain ⟨d1, w1, l1, lb, h1, h', rfl⟩ := runs_split (a := [_, _]) h
  obtain ⟨d2, w2, l2, l3, h2, h3, rfl⟩ := runs_split (a := [_, _]) h'
  have e1 := head_runs o hw hp hao ham hac hrf hreach hrs hne hcols hr hn hid h1
  have g1 := e1.2.2.1
  have c1 : d1.cols = "A_ID" :: (abNew ++ statusNew) := by rw [g1.cols, hcols]; rfl
  refine talk_of (extra := ["PRODUCT", "VALUE"]) hw hp hac (by decide) hcols (by decide) (by decide)
    (fun v v' hv hd => ?_) e1 (smsMid_runs g1.rect g1.nodup c1 h2) h3
  · rw [hv "VALUE" (by decide)]
    exact hd

end Groups
end Cdr
end Trumania
