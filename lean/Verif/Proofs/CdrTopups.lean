import Verif.Proofs.CdrTalk
import Verif.Props.GeneratorSizes

/-! Helper lemmas: the top-ups and the moves of test_cdr.py. -/

namespace Trumania
namespace Cdr
open Spec World
variable {σ γ : Type} {env : Env σ γ}
variable {fmt : Int → Cell} {data out : Frame} {ls : List Logs} {w w' : World σ γ}

/-- a constant column -/
theorem grows_constant {v : Cell} {name : String} {l : Logs} (hr : Rect data) (hn : data.index.Nodup)
    (hname : name ∉ data.cols) (h : Ops.randomValues env (.constant v) name none data w = .ok (out, l) w') :
    w' = w ∧ l = [] ∧ Grows [name] data out ∧ ∀ i ∈ out.index, valueAt out i name = v := by
  obtain ⟨rfl, g, hi⟩ := grows_adder (.randomValues _ _) hr hn hname h
  obtain ⟨-, values, hadds, hg⟩ := C91_random_values hn hr hname h
  rw [World.generate, World.call, Act.pure_eq_ok] at hg
  obtain ⟨rfl, rfl⟩ := hg
  refine ⟨rfl, rfl, g, fun i hi => ?_⟩
  obtain ⟨x, hx, rfl⟩ := mem_index.1 (g.labels i hi)
  obtain ⟨k, hk⟩ := List.mem_iff_getElem?.1 hx
  have hlt := (List.getElem?_eq_some_iff.1 hk).1
  refine valueAt_added hn hadds hk ?_
  rw [AnyGen.pyInt_natCast, Int.toNat_natCast, List.getElem?_replicate, if_pos hlt]

/-- the logged fields of the top-ups (test_cdr.py:345-348) -/
def topupLog : List String := ["TIME", "CUSTOMER_NUMBER", "AGENT", "VALUE", "OPERATOR", "MAIN_ACCT_OLD",
  "MAIN_ACCT"]

/-- What one execution of the story of top-ups does: `f` is the data at the end, `tbl` the logged table, `p'` the
SIMs and `ac'` their accounts afterwards. `ag` are the agents of the SIMs. -/
structure TopupRun (sims : Nat) (data : Frame) (P P' : List Population) (p : Population) (ao am ac : Attribute)
    (ag : List (Val × Val × Rat)) (ls : List Logs) (f tbl : Frame) (p' : Population) (ac' : Attribute) :
    Prop where
  logged : ls.filterMap (·.get? "topups") = [tbl]
  quiet : ∀ id, id ≠ "topups" → ls.filterMap (·.get? id) = []
  index : tbl.index = f.index
  nodup : f.index.Nodup
  labels : ∀ i ∈ f.index, i ∈ data.index
  rows : ∀ r ∈ tbl.rows, ∀ c ∈ topupLog, cell tbl r c = valueAt f r.idx c
  number : ∀ i ∈ f.index, Holds am i (valueAt f i "CUSTOMER_NUMBER")
  operator : ∀ i ∈ f.index, Holds ao i (valueAt f i "OPERATOR")
  old : ∀ i ∈ f.index, Holds ac i (valueAt f i "MAIN_ACCT_OLD")
  agent : ∀ i ∈ f.index, ∃ x, valueAt f i "AGENT" = .scalar x ∧
    ((∃ wt, (i, x, wt) ∈ ag) ∨ (x = .na ∧ ¬ Has ag i))
  value : ∀ i ∈ f.index, valueAt f i "VALUE" = .num 1000
  new : ∀ i ∈ f.index, arith (· + ·) (valueAt f i "VALUE") (valueAt f i "MAIN_ACCT_OLD") =
    .ok (valueAt f i "MAIN_ACCT")
  others : ∀ k, k ≠ sims → P'[k]? = P[k]?
  pop : P'[sims]? = some p'
  wf : Population.WF p'
  ids : p'.ids = p.ids
  acct : attributeOf p' "MAIN_ACCT" ac'
  attrs : ∀ n b, n ≠ "MAIN_ACCT" → (attributeOf p' n b ↔ attributeOf p n b)
  accounts : ∀ s c, Holds ac' s c ↔ (s ∈ f.index ∧ c = valueAt f s "MAIN_ACCT") ∨ (s ∉ f.index ∧ Holds ac s c)

/-- **one execution of the story of the top-ups** -/
theorem topupOps_runs {own sims possible : Nat} {p : Population} {ao am ac : Attribute} {r : Relationship σ}
    (o : Orders) (hp : w.pops[sims]? = some p) (hwf : Population.WF p) (hao : attributeOf p "OPERATOR" ao)
    (ham : attributeOf p "MSISDN" am) (hac : attributeOf p "MAIN_ACCT" ac)
    (hrel : w.rels[possible]? = some r) (hreach : Relationship.Reachable env.R r)
    (hcols : data.cols = ["SIM_ID"]) (hr : Rect data) (hn : data.index.Nodup)
    (hid : ∀ i ∈ data.index, valueAt data i "SIM_ID" = .scalar i)
    (h : Runs (topupOps env fmt own sims possible) data w out ls w') :
    ∃ tbl p' ac', TopupRun sims data w.pops w'.pops p ao am ac (r.get_relations o) ls out tbl p' ac' := by
  rw [topupOps] at h
  cases h with
  | @cons _ _ _ d1 _ _ w1 _ l1 _ h1 h =>
  cases h with
  | @cons _ _ _ d2 _ _ w2 _ l2 _ h2 h =>
  cases h with
  | @cons _ _ _ d3 _ _ w3 _ l3 _ h3 h =>
  cases h with
  | @cons _ _ _ d4 _ _ w4 _ l4 _ h4 h =>
  cases h with
  | @cons _ _ _ d5 _ _ w5 _ l5 _ h5 h =>
  cases h with
  | @cons _ _ _ d6 _ _ w6 _ l6 _ h6 h =>
  cases h with
  | @cons _ _ _ d7 _ _ w7 _ l7 _ h7 h =>
  cases h with
  | @cons _ _ _ d8 _ _ w8 _ l8 _ h8 h =>
  cases h
  obtain ⟨rfl, rfl, g1, i1, f1⟩ := grows_lookup hp hwf hr hn (by decide) (by rw [hcols]; decide) h1
  have c1 : d1.cols = ["SIM_ID", "CUSTOMER_NUMBER", "OPERATOR", "MAIN_ACCT_OLD"] := by rw [g1.cols, hcols]; rfl
  obtain ⟨rfl, g2, p2, f2, -⟩ := grows_selectOne g1.rect g1.nodup (by rw [c1]; decide) hrel hreach o h2
  have c2 : d2.cols = ["SIM_ID", "CUSTOMER_NUMBER", "OPERATOR", "MAIN_ACCT_OLD", "AGENT"] := by
    rw [g2.cols, c1]; rfl
  obtain ⟨rfl, rfl, g3, f3⟩ := grows_constant g2.rect g2.nodup (by rw [c2]; decide) h3
  have c3 : d3.cols = ["SIM_ID", "CUSTOMER_NUMBER", "OPERATOR", "MAIN_ACCT_OLD", "AGENT", "VALUE"] := by
    rw [g3.cols, c2]; rfl
  obtain ⟨rfl, rfl, g4, i4, values, hv, hadds⟩ := grows_series env g3.rect g3.nodup (by rw [c3]; decide) h4
  have hval := valueAt_forall g3.nodup hadds (arithColumns_ok hv)
  have c4 : d4.cols = ["SIM_ID", "CUSTOMER_NUMBER", "OPERATOR", "MAIN_ACCT_OLD", "AGENT", "VALUE", "MAIN_ACCT"] := by
    rw [g4.cols, c3]; rfl
  obtain ⟨rfl, rfl, k1, k2, -, -, p', ac', q1, q2, q3, q4, q5, q6⟩ :=
    attrUpdate_ok (by rw [p2]; exact hp) hwf hac g4.nodup h5
  obtain ⟨rfl, g6, i6⟩ := grows_adder (.timestamp true fmt) g4.rect g4.nodup (by rw [c4]; decide) h6
  have p6 : w6.pops = w5.pops := columnAdder_pops (env := env) (.timestamp true fmt) h6
  obtain ⟨rfl, rfl, tbl, rfl, e1, e2⟩ := logged_rows (by simp) g6.nodup h7
  obtain ⟨rfl, rfl⟩ := effect_same (env := env) (.maybeBackToDefault _) h8
  have hpops : ∀ k : Nat, w'.pops[k]? = w5.pops[k]? := fun k => by
    rw [Snd.KeepsPop.maybeBack (env := env) out _ _ _ h8, p6]
  have g := ((g1.trans g2).trans (g3.trans g4)).trans g6
  have l4 := g6.labels
  have l3 := fun i hi => g4.labels i (l4 i hi)
  have l2 := fun i hi => g3.labels i (l3 i hi)
  have l1 := fun i hi => g2.labels i (l2 i hi)
  have t1 := g2.trans ((g3.trans g4).trans g6)
  have hlook : ∀ s ∈ [("MSISDN", "CUSTOMER_NUMBER"), ("OPERATOR", "OPERATOR"), ("MAIN_ACCT", "MAIN_ACCT_OLD")],
      ∀ i ∈ out.index, ∀ a, attributeOf p s.1 a → Holds a i (valueAt out i s.2) := by
    intro s hs i hi a ha
    obtain ⟨a', ha', hl⟩ := f1 i (l1 i hi) s hs
    obtain rfl := attributeOf_unique hwf ha ha'
    rw [hid i (g1.labels i (l1 i hi))] at hl
    rw [t1.kept i hi s.2 (by
      rw [c1]
      have key : ∀ s ∈ [("MSISDN", "CUSTOMER_NUMBER"), ("OPERATOR", "OPERATOR"), ("MAIN_ACCT", "MAIN_ACCT_OLD")],
        s.2 ∈ ["SIM_ID", "CUSTOMER_NUMBER", "OPERATOR", "MAIN_ACCT_OLD"] := by decide
      exact key s hs)]
    exact hl
  have hsim : ∀ i ∈ d5.index, valueAt d5 i "SIM_ID" = .scalar i := by
    intro i hi
    have gg := (g1.trans g2).trans (g3.trans g4)
    rw [gg.kept i hi _ (by rw [hcols]; decide)]
    exact hid i (gg.labels i hi)
  refine ⟨tbl, p', ac', ⟨?_, ?_, e1, g6.nodup, g.labels, e2, fun i hi => ?_, fun i hi => ?_, fun i hi => ?_,
    fun i hi => ?_, fun i hi => ?_, fun i hi => ?_, fun k hk => ?_, ?_, q2, q3, q4, q5, fun s c => ?_⟩⟩
  · simp [List.filterMap_cons, Dict.get?]
  · intro id hid'
    simp [List.filterMap_cons, Dict.get?, Ne.symm hid']
  · exact hlook ("MSISDN", "CUSTOMER_NUMBER") (by decide) i hi am ham
  · exact hlook ("OPERATOR", "OPERATOR") (by decide) i hi ao hao
  · exact hlook ("MAIN_ACCT", "MAIN_ACCT_OLD") (by decide) i hi ac hac
  · obtain ⟨x, hx, hor⟩ := f2 i (l2 i hi)
    rw [g1.kept i (l1 i hi) _ (by rw [hcols]; decide), hid i (g.labels i hi)] at hor
    exact ⟨x, by rw [((g3.trans g4).trans g6).kept i hi _ (by rw [c2]; decide), hx], hor⟩
  · rw [(g4.trans g6).kept i hi _ (by rw [c3]; decide)]
    exact f3 i (l3 i hi)
  · rw [(g4.trans g6).kept i hi _ (by rw [c3]; decide), (g4.trans g6).kept i hi _ (by rw [c3]; decide),
      g6.kept i hi _ (by rw [c4]; decide)]
    obtain ⟨x, hx, rfl⟩ := mem_index.1 (l3 i hi)
    rw [valueAt_row g3.nodup hx, valueAt_row g3.nodup hx]
    exact hval x hx
  · rw [hpops, k2 k hk, p2]
  · rw [hpops]; exact q1
  · rw [q6]
    have hmain : ∀ i ∈ out.index, valueAt out i "MAIN_ACCT" = valueAt d5 i "MAIN_ACCT" := fun i hi =>
      g6.kept i hi _ (by rw [c4]; decide)
    constructor
    · rintro (⟨i, hi, a1, a2⟩ | ⟨a1, a2⟩)
      · rw [hsim i hi] at a1
        injection a1 with a1
        subst a1
        have hi' : i ∈ out.index := by rw [i6]; exact hi
        exact .inl ⟨hi', by rw [hmain i hi']; exact a2⟩
      · exact .inr ⟨fun hs => a1 s (l4 s hs) (hsim s (l4 s hs)), a2⟩
    · rintro (⟨a1, a2⟩ | ⟨a1, a2⟩)
      · exact .inl ⟨s, l4 s a1, hsim s (l4 s a1), by rw [← hmain s a1]; exact a2⟩
      · refine .inr ⟨fun i hi e => ?_, a2⟩
        rw [hsim i hi] at e
        injection e with e
        subst e
        exact a1 (by rw [i6]; exact hi)

/-- the logged fields of the moves (test_cdr.py:296-298) -/
def mobilityLog : List String := ["TIME", "A_ID", "PREV_CELL", "NEW_CELL"]

/-- What one execution of the story of moves does: `f` is the data at the end, `tbl` the logged table, `p'` the
subscribers and `ac'` their cells afterwards. `pc` are the possible cells. -/
structure MoveRun (subs : Nat) (data : Frame) (P P' : List Population) (p : Population) (ac : Attribute)
    (pc : List (Val × Val × Rat)) (ls : List Logs) (f tbl : Frame) (p' : Population) (ac' : Attribute) :
    Prop where
  logged : ls.filterMap (·.get? "mobility_logs") = [tbl]
  quiet : ∀ id, id ≠ "mobility_logs" → ls.filterMap (·.get? id) = []
  index : tbl.index = f.index
  nodup : f.index.Nodup
  labels : ∀ i ∈ f.index, i ∈ data.index
  rows : ∀ r ∈ tbl.rows, ∀ c ∈ mobilityLog, cell tbl r c = valueAt f r.idx c
  own : ∀ i ∈ f.index, valueAt f i "A_ID" = .scalar i
  old : ∀ i ∈ f.index, Holds ac i (valueAt f i "PREV_CELL")
  new : ∀ i ∈ f.index, ∃ x, valueAt f i "NEW_CELL" = .scalar x ∧
    ((∃ wt, (i, x, wt) ∈ pc) ∨ (x = .na ∧ ¬ Has pc i))
  others : ∀ k, k ≠ subs → P'[k]? = P[k]?
  pop : P'[subs]? = some p'
  wf : Population.WF p'
  ids : p'.ids = p.ids
  cell : attributeOf p' "CELL" ac'
  attrs : ∀ n b, n ≠ "CELL" → (attributeOf p' n b ↔ attributeOf p n b)
  cells : ∀ s c, Holds ac' s c ↔ (s ∈ f.index ∧ c = valueAt f s "NEW_CELL") ∨ (s ∉ f.index ∧ Holds ac s c)

/-- **one execution of the story of the moves** -/
theorem mobilityOps_runs {own subs possible : Nat} {p : Population} {ac : Attribute} {r : Relationship σ}
    (o : Orders) (hp : w.pops[subs]? = some p) (hwf : Population.WF p) (hac : attributeOf p "CELL" ac)
    (hrel : w.rels[possible]? = some r) (hreach : Relationship.Reachable env.R r)
    (hcols : data.cols = ["A_ID"]) (hr : Rect data) (hn : data.index.Nodup)
    (hid : ∀ i ∈ data.index, valueAt data i "A_ID" = .scalar i)
    (h : Runs (mobilityOps env fmt own subs possible) data w out ls w') :
    ∃ tbl p' ac', MoveRun subs data w.pops w'.pops p ac (r.get_relations o) ls out tbl p' ac' := by
  rw [mobilityOps] at h
  cases h with
  | @cons _ _ _ d1 _ _ w1 _ l1 _ h1 h =>
  cases h with
  | @cons _ _ _ d2 _ _ w2 _ l2 _ h2 h =>
  cases h with
  | @cons _ _ _ d3 _ _ w3 _ l3 _ h3 h =>
  cases h with
  | @cons _ _ _ d4 _ _ w4 _ l4 _ h4 h =>
  cases h with
  | @cons _ _ _ d5 _ _ w5 _ l5 _ h5 h =>
  cases h with
  | @cons _ _ _ d6 _ _ w6 _ l6 _ h6 h =>
  cases h
  obtain ⟨rfl, rfl, g1, i1, f1⟩ := grows_lookup hp hwf hr hn (by decide) (by rw [hcols]; decide) h1
  have c1 : d1.cols = ["A_ID", "PREV_CELL"] := by rw [g1.cols, hcols]; rfl
  obtain ⟨rfl, g2, p2, f2, -⟩ := grows_selectOne g1.rect g1.nodup (by rw [c1]; decide) hrel hreach o h2
  have c2 : d2.cols = ["A_ID", "PREV_CELL", "NEW_CELL"] := by rw [g2.cols, c1]; rfl
  obtain ⟨rfl, rfl, k1, k2, -, -, p', ac', q1, q2, q3, q4, q5, q6⟩ :=
    attrUpdate_ok (by rw [p2]; exact hp) hwf hac g2.nodup h3
  obtain ⟨rfl, g4, i4⟩ := grows_adder (.timestamp true fmt) g2.rect g2.nodup (by rw [c2]; decide) h4
  have p4 : w4.pops = w3.pops := columnAdder_pops (env := env) (.timestamp true fmt) h4
  obtain ⟨rfl, rfl, tbl, rfl, e1, e2⟩ := logged_rows (by simp) g4.nodup h5
  obtain ⟨rfl, rfl⟩ := effect_same (env := env) (.maybeBackToDefault _) h6
  have hpops : ∀ k : Nat, w'.pops[k]? = w3.pops[k]? := fun k => by
    rw [Snd.KeepsPop.maybeBack (env := env) out _ _ _ h6, p4]
  have g := (g1.trans g2).trans g4
  have l2 := g4.labels
  have l1 := fun i hi => g2.labels i (l2 i hi)
  have hown : ∀ i ∈ d3.index, valueAt d3 i "A_ID" = .scalar i := by
    intro i hi
    rw [(g1.trans g2).kept i hi _ (by rw [hcols]; decide)]
    exact hid i ((g1.trans g2).labels i hi)
  refine ⟨tbl, p', ac', ⟨?_, ?_, e1, g4.nodup, g.labels, e2, fun i hi => ?_, fun i hi => ?_, fun i hi => ?_,
    fun k hk => ?_, ?_, q2, q3, q4, q5, fun s c => ?_⟩⟩
  · simp [List.filterMap_cons, Dict.get?]
  · intro id hid'
    simp [List.filterMap_cons, Dict.get?, Ne.symm hid']
  · rw [g.kept i hi _ (by rw [hcols]; decide)]
    exact hid i (g.labels i hi)
  · obtain ⟨a', ha', hl⟩ := f1 i (l1 i hi) ("CELL", "PREV_CELL") (by decide)
    obtain rfl := attributeOf_unique hwf hac ha'
    rw [hid i (g1.labels i (l1 i hi))] at hl
    rw [(g2.trans g4).kept i hi _ (by rw [c1]; decide)]
    exact hl
  · obtain ⟨x, hx, hor⟩ := f2 i (l2 i hi)
    rw [g1.kept i (l1 i hi) _ (by rw [hcols]; decide), hid i (g.labels i hi)] at hor
    exact ⟨x, by rw [g4.kept i hi _ (by rw [c2]; decide), hx], hor⟩
  · rw [hpops, k2 k hk, p2]
  · rw [hpops]; exact q1
  · rw [q6]
    have hmain : ∀ i ∈ out.index, valueAt out i "NEW_CELL" = valueAt d3 i "NEW_CELL" := fun i hi =>
      g4.kept i hi _ (by rw [c2]; decide)
    constructor
    · rintro (⟨i, hi, a1, a2⟩ | ⟨a1, a2⟩)
      · rw [hown i hi] at a1
        injection a1 with a1
        subst a1
        have hi' : i ∈ out.index := by rw [i4]; exact hi
        exact .inl ⟨hi', by rw [hmain i hi']; exact a2⟩
      · exact .inr ⟨fun hs => a1 s (l2 s hs) (hown s (l2 s hs)), a2⟩
    · rintro (⟨a1, a2⟩ | ⟨a1, a2⟩)
      · exact .inl ⟨s, l2 s a1, hown s (l2 s a1), by rw [← hmain s a1]; exact a2⟩
      · refine .inr ⟨fun i hi e => ?_, a2⟩
        rw [hown i hi] at e
        injection e with e
        subst e
        exact a1 (by rw [i4]; exact hi)

end Cdr
end Trumania
