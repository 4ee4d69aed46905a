import Verif.Proofs.CdrRun

/-!
# Properties C110 to C114: the accounts, the calls, the moves and the top-ups of test_cdr.py
-/

namespace Trumania
namespace Cdr
open Spec World
variable {σ γ : Type} {env : Env σ γ} {fmt : Int → Cell} {c : Cast}

/-! ### Values of attributes -/

theorem valueOf_iff {w : World σ γ} {k : Nat} {p : Population} {name : String} {a : Attribute} {s : Val} {v : Cell}
    (hp : w.pops[k]? = some p) (hwf : Population.WF p) (ha : attributeOf p name a) :
    ValueOf w k name s v ↔ Holds a s v := by
  constructor
  · rintro ⟨p', a', h1, h2, h3⟩
    rw [hp] at h1
    cases h1
    rw [attributeOf_unique hwf ha h2]
    exact h3
  · exact fun h => ⟨p, a, hp, ha, h⟩

theorem holds_unique {a : Attribute} (ha : OneValueEach a) {s : Val} {v v' : Cell} (h : Holds a s v)
    (h' : Holds a s v') : v = v' :=
  Option.some.inj ((Dict.get?_of_mem (d := a.table) ha h).symm.trans (Dict.get?_of_mem (d := a.table) ha h'))

/-- **C110** the operators and the numbers of the SIMs never change -/
theorem C110_numbers_kept (hd : c.Distinct) {w w' : World σ γ} (hw : Plays env c w) {i : Nat}
    {ops : List (Op (World σ γ))} {logs : Logs} (hi : (c.chains env fmt)[i]? = some ops)
    (h : World.execute env ops i w = .ok logs w') {name : String} (hname : name ∈ ["OPERATOR", "MSISDN"])
    (s : Val) (v : Cell) : ValueOf w' c.t.sims name s v ↔ ValueOf w c.t.sims name s v := by
  obtain ⟨hw', hh⟩ := exec_step hd hw hi h
  obtain ⟨p, ao, am, ac, hp, hao, ham, hac⟩ := hw.sims
  obtain ⟨p', ac', e1, e2, e3, e4⟩ := happened_sims hd (hh env.orders).1 hw.wf hp hao ham hac
  have w1 := hw.wf p (List.mem_of_getElem? hp)
  have w2 := hw'.wf p' (List.mem_of_getElem? e1)
  simp only [List.mem_cons, List.not_mem_nil, or_false] at hname
  rcases hname with rfl | rfl
  · rw [valueOf_iff hp w1 hao, valueOf_iff e1 w2 e2]
  · rw [valueOf_iff hp w1 ham, valueOf_iff e1 w2 e3]

/-! ### The account of a SIM -/

theorem filter_label {l : List Row} (hn : (l.map (·.idx)).Nodup) {P : Row → Bool} {r : Row} (hr : r ∈ l)
    (hP : ∀ x ∈ l, P x = true ↔ x.idx = r.idx) : l.filter P = [r] := by
  induction l with
  | nil => cases hr
  | cons y l ih =>
    rw [List.map_cons, List.nodup_cons] at hn
    have key : ∀ x ∈ l, x.idx ≠ y.idx := fun x hx e => hn.1 (List.mem_map.2 ⟨x, hx, e⟩)
    rcases List.mem_cons.1 hr with rfl | hr
    · rw [List.filter_cons_of_pos ((hP r (by simp)).2 rfl)]
      congr 1
      rw [List.filter_eq_nil_iff]
      intro x hx h
      exact key x hx ((hP x (by simp [hx])).1 h)
    · rw [List.filter_cons_of_neg]
      · exact ih hn.2 hr fun x hx => hP x (by simp [hx])
      · intro h
        exact key r hr ((hP y (by simp)).1 h).symm

/-- the total of the rows of a table that name `m` -/
def inTable (key qty : String) (m : Val) (t : Frame) : Rat :=
  ((t.rows.filter fun r => decide (cell t r key = .scalar m)).map fun r => numIn (cell t r qty)).sum

theorem totalOf_tables {logId key qty : String} {m : Val} {logs : Logs} :
    totalOf logId key qty m logs = ((tablesOf logId logs).map (inTable key qty m)).sum := rfl

theorem totalOf_append {logId key qty : String} {m : Val} {l l' : Logs} :
    totalOf logId key qty m (l ++ l') = totalOf logId key qty m l + totalOf logId key qty m l' := by
  simp [totalOf, tablesOf]

/-- what the talks of one execution take from the account of a SIM -/
theorem talk_balance {t : Talk} {J : Cell → Bool → Prop} {logId : String} {cols : List String} {value : (String → Cell) → Prop} {data : Frame}
    {P P' : List Population} {p : Population} {ao am ac : Attribute} {fr sr : List (Val × Val × Rat)} {ls : List Logs}
    {f tbl : Frame} {p' : Population} {ac' : Attribute}
    (h : TalkRun t J logId cols value data P P' p ao am ac fr sr ls f tbl p' ac')
    (hcols : "MSISDN_A" ∈ cols ∧ "VALUE" ∈ cols) (ham : OneValueEach am) (hac : OneValueEach ac) {s m : Val} {q : Rat}
    (hm : Holds am s (.scalar m)) (hu : ∀ s', Holds am s' (.scalar m) → s' = s) (hq : Holds ac s (.num q))
    (hp : ∀ r ∈ tbl.rows, cell tbl r "MSISDN_A" = .scalar m → ∃ v : Rat, cell tbl r "VALUE" = .num v) :
    Holds ac' s (.num (q - inTable "MSISDN_A" "VALUE" m tbl)) := by
  have hidx : ∀ r ∈ tbl.rows, r.idx ∈ f.index := fun r hr => by
    rw [← h.index]
    exact List.mem_map.2 ⟨r, hr, rfl⟩
  have hiff : ∀ r ∈ tbl.rows, cell tbl r "MSISDN_A" = .scalar m ↔ valueAt f r.idx "SIM_A" = .scalar s := by
    intro r hr
    obtain ⟨x, -, hx⟩ := h.dialled r.idx (hidx r hr)
    rw [h.rows r hr _ hcols.1, hx.numA, hx.simA]
    constructor
    · intro e
      injection e with e
      have := hx.numA_of
      rw [e] at this
      rw [hu _ this]
    · intro e
      injection e with e
      have := hx.numA_of
      rw [e] at this
      exact holds_unique ham this hm
  have hnd : (tbl.rows.map (·.idx)).Nodup := by
    have := h.nodup
    rw [← h.index] at this
    exact this
  rw [h.accounts]
  by_cases hex : ∃ i ∈ f.index, valueAt f i "SIM_A" = .scalar s
  · obtain ⟨i, hi, hs⟩ := hex
    have hi' := hi
    rw [← h.index] at hi'
    obtain ⟨r, hr, rfl⟩ := mem_index.1 hi'
    have hfil : tbl.rows.filter (fun r => decide (cell tbl r "MSISDN_A" = .scalar m)) = [r] := by
      refine filter_label hnd hr fun x hx => ?_
      rw [decide_eq_true_eq, hiff x hx]
      constructor
      · intro e
        exact h.sims x.idx (hidx x hx) r.idx hi (e.trans hs.symm)
      · intro e
        rw [e]; exact hs
    obtain ⟨v, hv⟩ := hp r hr ((hiff r hr).2 hs)
    have hv' : valueAt f r.idx "VALUE" = .num v := by rw [← h.rows r hr _ hcols.2]; exact hv
    obtain ⟨x, -, hx⟩ := h.dialled r.idx hi
    obtain ⟨c, hc1, hc2⟩ := hx.old
    have : x.simA = s := by
      have := hx.simA.symm.trans hs
      injection this
    rw [this] at hc2
    have hc := holds_unique hac hc2 hq
    rw [hc] at hc1
    have hnew := h.new r.idx hi
    rw [hc1, hv'] at hnew
    have hnew : Cell.num (q - v) = valueAt f r.idx "MAIN_ACCT_NEW" := by injection hnew
    refine .inl ⟨r.idx, hi, hs, ?_⟩
    rw [← hnew, inTable, hfil]
    simp [hv, numIn, Cell.num]
  · have hfil : tbl.rows.filter (fun r => decide (cell tbl r "MSISDN_A" = .scalar m)) = [] := by
      rw [List.filter_eq_nil_iff]
      intro r hr e
      exact hex ⟨r.idx, hidx r hr, (hiff r hr).1 (of_decide_eq_true e)⟩
    refine .inr ⟨fun i hi e => hex ⟨i, hi, e⟩, ?_⟩
    rw [inTable, hfil]
    simpa using hq

/-- what the top-ups of one execution add to the account of a SIM -/
theorem topup_balance {sims : Nat} {data : Frame}
    {P P' : List Population} {p : Population} {ao am ac : Attribute} {ag : List (Val × Val × Rat)} {ls : List Logs}
    {f tbl : Frame} {p' : Population} {ac' : Attribute}
    (h : TopupRun sims data P P' p ao am ac ag ls f tbl p' ac')
    (ham : OneValueEach am) (hac : OneValueEach ac) {s m : Val} {q : Rat}
    (hm : Holds am s (.scalar m)) (hu : ∀ s', Holds am s' (.scalar m) → s' = s) (hq : Holds ac s (.num q)) :
    Holds ac' s (.num (q + inTable "CUSTOMER_NUMBER" "VALUE" m tbl)) := by
  have hidx : ∀ r ∈ tbl.rows, r.idx ∈ f.index := fun r hr => by
    rw [← h.index]
    exact List.mem_map.2 ⟨r, hr, rfl⟩
  have hiff : ∀ r ∈ tbl.rows, cell tbl r "CUSTOMER_NUMBER" = .scalar m ↔ r.idx = s := by
    intro r hr
    have hx := h.number r.idx (hidx r hr)
    rw [h.rows r hr _ (by decide)]
    constructor
    · intro e
      rw [e] at hx
      exact hu _ hx
    · intro e
      rw [e] at hx ⊢
      exact holds_unique ham hx hm
  have hnd : (tbl.rows.map (·.idx)).Nodup := by
    have := h.nodup
    rw [← h.index] at this
    exact this
  rw [h.accounts]
  by_cases hi : s ∈ f.index
  · have hi' := hi
    rw [← h.index] at hi'
    obtain ⟨r, hr, rfl⟩ := mem_index.1 hi'
    have hfil : tbl.rows.filter (fun r => decide (cell tbl r "CUSTOMER_NUMBER" = .scalar m)) = [r] :=
      filter_label hnd hr fun x hx => by rw [decide_eq_true_eq, hiff x hx]
    have hnew := h.new r.idx hi
    rw [holds_unique hac (h.old r.idx hi) hq, h.value r.idx hi] at hnew
    have hnew : Cell.num (1000 + q) = valueAt f r.idx "MAIN_ACCT" := by injection hnew
    refine .inl ⟨hi, ?_⟩
    rw [← hnew, inTable, hfil]
    simp only [List.map_cons, List.map_nil, List.sum_cons, List.sum_nil]
    rw [h.rows r hr _ (by decide), h.value r.idx hi]
    simp [numIn, Cell.num, add_comm]
  · have hfil : tbl.rows.filter (fun r => decide (cell tbl r "CUSTOMER_NUMBER" = .scalar m)) = [] := by
      rw [List.filter_eq_nil_iff]
      intro r hr e
      exact hi ((hiff r hr).1 (of_decide_eq_true e) ▸ hidx r hr)
    refine .inr ⟨hi, ?_⟩
    rw [inTable, hfil]
    simpa using hq

theorem totalOf_none {logId key qty : String} {m : Val} {logs : Logs} (h : tablesOf logId logs = []) :
    totalOf logId key qty m logs = 0 := by simp [totalOf, h]

theorem totalOf_one {logId key qty : String} {m : Val} {logs : Logs} {t : Frame} (h : tablesOf logId logs = [t]) :
    totalOf logId key qty m logs = inTable key qty m t := by simp [totalOf_tables, h]

/-- **C110** one execution: what the account of a SIM loses is what the logs of the execution say that its number
spent, less what they say it was topped up -/
theorem C110_execution (hd : c.Distinct) {w w' : World σ γ} (hw : Plays env c w) {i : Nat}
    {ops : List (Op (World σ γ))} {logs : Logs} (hi : (c.chains env fmt)[i]? = some ops)
    (h : World.execute env ops i w = .ok logs w') {s m : Val} {q : Rat}
    (hm : ValueOf w c.t.sims "MSISDN" s (.scalar m)) (hu : ∀ s', ValueOf w c.t.sims "MSISDN" s' (.scalar m) → s' = s)
    (hq : ValueOf w c.t.sims "MAIN_ACCT" s (.num q)) (hp : Priced m logs) :
    ValueOf w' c.t.sims "MAIN_ACCT" s (.num (q - spent m logs + toppedUp m logs)) := by
  obtain ⟨hw', hh⟩ := exec_step hd hw hi h
  replace hh := (hh env.orders).1
  have h0 : ∀ {ls : List Logs} {logId : String}, (∀ id, tablesOf id logs = ls.filterMap (·.get? id)) →
      (∀ id, id ≠ logId → ls.filterMap (·.get? id) = []) → ∀ id, id ≠ logId → tablesOf id logs = [] :=
    fun a b id hid => (a id).trans (b id hid)
  cases hh with
  | aside quiet h1 _ =>
    rw [spent, toppedUp, totalOf_none (quiet _ (by decide)), totalOf_none (quiet _ (by decide)),
      totalOf_none (quiet _ (by decide))]
    obtain ⟨p, a, e1, e2, e3⟩ := hq
    exact ⟨p, a, h1.trans e1, e2, by simpa using e3⟩
  | moved _ _ _ tables h =>
    have h0 := h0 tables h.quiet
    rw [spent, toppedUp, totalOf_none (h0 _ (by decide)), totalOf_none (h0 _ (by decide)),
      totalOf_none (h0 _ (by decide))]
    obtain ⟨p, a, e1, e2, e3⟩ := hq
    exact ⟨p, a, (h.others _ hd.subsSims.symm).trans e1, e2, by simpa using e3⟩
  | topped _ hp' hao ham hac tables h =>
    have h0 := h0 tables h.quiet
    have hwf := hw.wf _ (List.mem_of_getElem? hp')
    rw [spent, toppedUp, totalOf_none (h0 _ (by decide)), totalOf_none (h0 _ (by decide)),
      totalOf_one ((tables _).trans h.logged)]
    simp only [valueOf_iff hp' hwf ham] at hm hu
    rw [valueOf_iff hp' hwf hac] at hq
    refine ⟨_, _, h.pop, h.acct, ?_⟩
    rw [add_zero, sub_zero]
    exact topup_balance h (hwf.values _ ham) (hwf.values _ hac) hm hu hq
  | called _ _ hp' hao ham hac tables h =>
    have h0 := h0 tables h.quiet
    have hwf := hw.wf _ (List.mem_of_getElem? hp')
    have h1 := (tables _).trans h.logged
    rw [spent, toppedUp, totalOf_one h1, totalOf_none (h0 _ (by decide)), totalOf_none (h0 _ (by decide))]
    simp only [valueOf_iff hp' hwf ham] at hm hu
    rw [valueOf_iff hp' hwf hac] at hq
    refine ⟨_, _, h.pop, h.acct, ?_⟩
    rw [add_zero, add_zero]
    exact talk_balance h (by decide) (hwf.values _ ham) (hwf.values _ hac) hm hu hq
      (hp _ (by rw [h1]; simp))
  | texted _ _ hp' hao ham hac tables h =>
    have h0 := h0 tables h.quiet
    have hwf := hw.wf _ (List.mem_of_getElem? hp')
    have h1 := (tables _).trans h.logged
    rw [spent, toppedUp, totalOf_one h1, totalOf_none (h0 "voice_cdr" (by decide)),
      totalOf_none (h0 "topups" (by decide))]
    simp only [valueOf_iff hp' hwf ham] at hm hu
    rw [valueOf_iff hp' hwf hac] at hq
    refine ⟨_, _, h.pop, h.acct, ?_⟩
    rw [zero_add, add_zero]
    refine talk_balance h (by decide) (hwf.values _ ham) (hwf.values _ hac) hm hu hq fun r hr _ => ⟨10, ?_⟩
    rw [h.rows r hr _ (by decide)]
    exact h.value r.idx (by rw [← h.index]; exact List.mem_map.2 ⟨r, hr, rfl⟩)

theorem priced_append {m : Val} {l l' : Logs} (h : Priced m (l ++ l')) : Priced m l ∧ Priced m l' := by
  have e : tablesOf "voice_cdr" (l ++ l') = tablesOf "voice_cdr" l ++ tablesOf "voice_cdr" l' := by
    simp [tablesOf]
  constructor <;> intro t ht <;> refine h t ?_ <;> rw [e, List.mem_append]
  · exact .inl ht
  · exact .inr ht

/-- **C110** In any run of the six stories, whatever the generators draw: the account of a SIM, whose number no
other SIM has, is what it was at the beginning, less the prices of the calls and messages that the logs tell of this
number, plus the top-ups that they tell of it. -/
theorem C110_ledger (hd : c.Distinct) {w w' : World σ γ} {evs : List (Int × Event)}
    (h : Played env (c.chains env fmt) w evs w') (hw : Plays env c w) {s m : Val} {q : Rat}
    (hm : ValueOf w c.t.sims "MSISDN" s (.scalar m)) (hu : ∀ s', ValueOf w c.t.sims "MSISDN" s' (.scalar m) → s' = s)
    (hq : ValueOf w c.t.sims "MAIN_ACCT" s (.num q)) (hp : Priced m (emitted evs)) :
    ValueOf w' c.t.sims "MAIN_ACCT" s (.num (q - spent m (emitted evs) + toppedUp m (emitted evs))) := by
  induction h generalizing q with
  | nil w => simpa [emitted, spent, toppedUp, totalOf, tablesOf] using hq
  | @exec w w1 w' evs i ops logs hi h rest ih =>
    have e : emitted ((w.clock.current, Event.exec i logs) :: evs) = logs ++ emitted evs := rfl
    rw [e] at hp ⊢
    obtain ⟨p1, p2⟩ := priced_append hp
    have hk := C110_numbers_kept hd hw hi h (name := "MSISDN") (by decide)
    have h1 := C110_execution hd hw hi h hm hu hq p1
    have := ih (exec_step hd hw hi h).1 ((hk _ _).2 hm) (fun s' hs' => hu s' ((hk _ _).1 hs')) h1 p2
    have e2 : q - spent m (logs ++ emitted evs) + toppedUp m (logs ++ emitted evs) =
        q - spent m logs + toppedUp m logs - spent m (emitted evs) + toppedUp m (emitted evs) := by
      simp only [spent, toppedUp, totalOf_append]
      ring
    rw [e2]
    exact this
  | @tick w w' evs rest ih => exact ih ⟨hw.wf, hw.ids, hw.fields, hw.rels, hw.sims, hw.subs⟩ hm hu hq hp

/-! ### What a record says -/

theorem mem_stockAt {o : Orders} {w : World σ γ} {i : Nat} {r : Relationship σ} (h : w.rels[i]? = some r)
    {a b : Val} : (a, b) ∈ stockAt o w i ↔ ∃ wt, (a, b, wt) ∈ r.get_relations o := by
  rw [stockAt_of h]
  simp

theorem mem_tosOf {o : Orders} {w : World σ γ} {i : Nat} {r : Relationship σ} (h : w.rels[i]? = some r)
    {a b : Val} : b ∈ tosOf (r.get_relations o) a ↔ (a, b) ∈ stockAt o w i := by
  rw [mem_stockAt h, tosOf]
  simp

theorem onnet_cases (a b : Cell) : onnet a b = .str "ONNET" ∧ a = .str "OPERATOR_0" ∧ b = .str "OPERATOR_0" ∨
    onnet a b = .str "OFFNET" ∧ (a ≠ .str "OPERATOR_0" ∨ b ≠ .str "OPERATOR_0") := by
  rw [onnet]
  by_cases h : a = .str "OPERATOR_0" ∧ b = .str "OPERATOR_0"
  · rw [if_pos h]
    exact .inl ⟨rfl, h⟩
  · rw [if_neg h]
    exact .inr ⟨rfl, not_and_or.1 h⟩

/-- the records of one execution -/
theorem talk_records {o : Orders} {w w' : World σ γ} {rf rs : Relationship σ} {J : Cell → Bool → Prop} {logId : String}
    {cols : List String} {value : (String → Cell) → Prop} {data : Frame} {p : Population} {ao am ac : Attribute} {ls : List Logs}
    {f tbl : Frame} {p' : Population} {ac' : Attribute} (hw : Plays env c w)
    (hrf : w.rels[c.t.friends]? = some rf) (hrs : w.rels[c.t.simsOf]? = some rs)
    (hp : w.pops[c.t.sims]? = some p) (hao : attributeOf p "OPERATOR" ao) (ham : attributeOf p "MSISDN" am)
    (hcols : ∀ x ∈ ["MSISDN_A", "MSISDN_B", "STATUS", "CELL_A", "OPERATOR_A", "CELL_B", "OPERATOR_B", "TYPE"],
      x ∈ cols)
    (hna : ∀ s, (.na, s) ∉ stockAt o w c.t.simsOf)
    (h : TalkRun c.t J logId cols value data w.pops w'.pops p ao am ac (rf.get_relations o) (rs.get_relations o) ls f
      tbl p' ac') :
    ∀ r ∈ tbl.rows, ∃ b simA simB, Record o w c.t tbl r r.idx b simA simB ∧ valueAt f r.idx "B_ID" = .scalar b ∧
      valueAt f r.idx "SIM_A" = .scalar simA := by
  intro r hr
  have hi : r.idx ∈ f.index := by
    rw [← h.index]
    exact List.mem_map.2 ⟨r, hr, rfl⟩
  have hwf := hw.wf p (List.mem_of_getElem? hp)
  have e : ∀ x ∈ ["MSISDN_A", "MSISDN_B", "STATUS", "CELL_A", "OPERATOR_A", "CELL_B", "OPERATOR_B", "TYPE"],
      cell tbl r x = valueAt f r.idx x := fun x hx => h.rows r hr x (hcols x hx)
  obtain ⟨x, hxa, hx⟩ := h.dialled r.idx hi
  obtain ⟨q, hq, hpl⟩ := h.places
  obtain ⟨pl, hpl, h1, h2⟩ := hpl r.idx hi
  obtain ⟨sa, sb, -, -, -, -, hst, -⟩ := h.status r.idx hi
  have hb := (mem_tosOf hrs).1 hx.ownB
  have hv : ∀ (s : Val) (v : Cell), ValueOf w c.t.sims "OPERATOR" s v ↔ Holds ao s v := fun s v =>
    valueOf_iff hp hwf hao
  refine ⟨x.b, x.simA, x.simB, ⟨?_, ?_, hb, ?_, ?_, ?_, ?_, ?_, ?_, ?_, ?_, ?_⟩, hx.b, hx.simA⟩
  · rcases hx.friend with hf | ⟨hf, -⟩
    · rw [hxa] at hf
      exact (mem_stockAt hrf).2 hf
    · rw [hf] at hb
      exact absurd hb (hna _)
  · rw [← hxa]
    exact (mem_tosOf hrs).1 hx.ownA
  · rw [e _ (by decide), hx.numA]
    exact ⟨p, am, hp, ham, hx.numA_of⟩
  · rw [e _ (by decide), hx.numB]
    exact ⟨p, am, hp, ham, hx.numB_of⟩
  · rw [e _ (by decide), hx.opA]
    exact ⟨p, ao, hp, hao, hx.opA_of⟩
  · rw [e _ (by decide), hx.opB]
    exact ⟨p, ao, hp, hao, hx.opB_of⟩
  · intro s s' op k1 k2 k3 k4
    rw [← hxa] at k1
    rw [e _ (by decide), e _ (by decide), hx.opA, hx.opB, hx.common s ((mem_tosOf hrs).2 k1) s'
      ((mem_tosOf hrs).2 k2) op ((hv _ _).1 k3) ((hv _ _).1 k4)]
  · rw [e _ (by decide), e _ (by decide), e _ (by decide), hx.opA, hx.opB, hx.type]
    exact onnet_cases _ _
  · rw [e _ (by decide)]
    exact ⟨q, pl, hq, hpl, h1⟩
  · rw [e _ (by decide)]
    exact ⟨q, pl, hq, hpl, h2 _ hx.b⟩
  · rw [e _ (by decide), hst, Cdr.status]
    cases sa <;> cases sb <;> simp

theorem doubled_cases {v : String → Cell} (h : doubled (v "DURATION") = .ok (v "VALUE")) :
    (∃ q : Rat, v "DURATION" = .num q ∧ v "VALUE" = .num (2 * q)) ∨ v "DURATION" = .na ∧ v "VALUE" = .na := by
  generalize v "DURATION" = d at h ⊢
  generalize v "VALUE" = x at h ⊢
  unfold doubled at h
  split at h
  · injection h with h
    exact .inl ⟨_, rfl, by rw [← h, mul_comm]⟩
  · injection h with h
    exact .inr ⟨rfl, h.symm⟩
  · cases h

/-- the records of calls or of messages that an execution logs -/
structure Talks (o : Orders) (w : World σ γ) (t : Talk) (price : Frame → Row → Prop) (tbl : Frame) : Prop where
  /-- each row is about a caller and a callee, with a SIM each -/
  records : ∀ r ∈ tbl.rows, ∃ a b simA simB, Record o w t tbl r a b simA simB
  price : ∀ r ∈ tbl.rows, price tbl r

/-- **C111** what a record of a call, or of a message, says is so when it is logged -/
theorem C111_records (hd : c.Distinct) {w w' : World σ γ} (hw : Plays env c w) {i : Nat}
    {ops : List (Op (World σ γ))} {logs : Logs} (hi : (c.chains env fmt)[i]? = some ops)
    (h : World.execute env ops i w = .ok logs w') (o : Orders) (hna : ∀ s, (.na, s) ∉ stockAt o w c.t.simsOf) :
    (∀ t ∈ tablesOf "voice_cdr" logs, Talks o w c.t CallPrice t) ∧
    ∀ t ∈ tablesOf "sms_cdr" logs, Talks o w c.t SmsPrice t := by
  have hh := ((exec_step hd hw hi h).2 o).1
  have h0 : ∀ {ls : List Logs} {logId : String}, (∀ id, tablesOf id logs = ls.filterMap (·.get? id)) →
      (∀ id, id ≠ logId → ls.filterMap (·.get? id) = []) → ∀ id, id ≠ logId → ∀ Q : Frame → Prop,
      ∀ t ∈ tablesOf id logs, Q t :=
    fun a b id hid Q t ht => by rw [(a id).trans (b id hid)] at ht; cases ht
  cases hh with
  | aside quiet _ _ =>
    constructor <;> intro t ht <;> rw [quiet _ (by decide)] at ht <;> cases ht
  | moved _ _ _ tables h =>
    exact ⟨h0 tables h.quiet _ (by decide) _, h0 tables h.quiet _ (by decide) _⟩
  | topped _ _ _ _ _ tables h =>
    exact ⟨h0 tables h.quiet _ (by decide) _, h0 tables h.quiet _ (by decide) _⟩
  | called hrf hrs hp hao ham hac tables h =>
    refine ⟨fun t ht => ?_, h0 tables h.quiet _ (by decide) _⟩
    rw [(tables _).trans h.logged, List.mem_singleton] at ht
    subst ht
    refine ⟨fun r hr => ?_, fun r hr => ?_⟩
    · obtain ⟨b, sa, sb, h1, -⟩ := talk_records hw hrf hrs hp hao ham (by decide) hna h r hr
      exact ⟨_, _, _, _, h1⟩
    · have := doubled_cases (h.value r.idx (by rw [← h.index]; exact List.mem_map.2 ⟨r, hr, rfl⟩))
      rw [CallPrice, h.rows r hr _ (by decide), h.rows r hr _ (by decide)]
      exact this
  | texted hrf hrs hp hao ham hac tables h =>
    refine ⟨h0 tables h.quiet _ (by decide) _, fun t ht => ?_⟩
    rw [(tables _).trans h.logged, List.mem_singleton] at ht
    subst ht
    refine ⟨fun r hr => ?_, fun r hr => ?_⟩
    · obtain ⟨b, sa, sb, h1, -⟩ := talk_records hw hrf hrs hp hao ham (by decide) hna h r hr
      exact ⟨_, _, _, _, h1⟩
    · rw [SmsPrice, h.rows r hr _ (by decide)]
      exact h.value r.idx (by rw [← h.index]; exact List.mem_map.2 ⟨r, hr, rfl⟩)

/-- no two rows have the same caller, the same callee or the same SIM of the caller -/
def OnceEach (o : Orders) (w : World σ γ) (t : Talk) (tbl : Frame) : Prop :=
  ∃ caller callee simA simB : Row → Val,
    (∀ r ∈ tbl.rows, Record o w t tbl r (caller r) (callee r) (simA r) (simB r)) ∧
    tbl.rows.Pairwise fun r r' => caller r ≠ caller r' ∧ callee r ≠ callee r' ∧ simA r ≠ simA r'

open Classical in
theorem talk_once {o : Orders} {w w' : World σ γ} {rf rs : Relationship σ} {J : Cell → Bool → Prop} {logId : String}
    {cols : List String} {value : (String → Cell) → Prop} {data : Frame} {p : Population} {ao am ac : Attribute} {ls : List Logs}
    {f tbl : Frame} {p' : Population} {ac' : Attribute} (hw : Plays env c w)
    (hrf : w.rels[c.t.friends]? = some rf) (hrs : w.rels[c.t.simsOf]? = some rs)
    (hp : w.pops[c.t.sims]? = some p) (hao : attributeOf p "OPERATOR" ao) (ham : attributeOf p "MSISDN" am)
    (hcols : ∀ x ∈ ["MSISDN_A", "MSISDN_B", "STATUS", "CELL_A", "OPERATOR_A", "CELL_B", "OPERATOR_B", "TYPE"],
      x ∈ cols)
    (hna : ∀ s, (.na, s) ∉ stockAt o w c.t.simsOf)
    (h : TalkRun c.t J logId cols value data w.pops w'.pops p ao am ac (rf.get_relations o) (rs.get_relations o) ls f
      tbl p' ac') : OnceEach o w c.t tbl := by
  have key := talk_records hw hrf hrs hp hao ham hcols hna h
  haveI : Nonempty Val := ⟨.na⟩
  choose! b sa sb h1 h2 h3 using key
  have hnd : (tbl.rows.map (·.idx)).Nodup := by
    have := h.nodup
    rw [← h.index] at this
    exact this
  have hidx : ∀ r ∈ tbl.rows, r.idx ∈ f.index := fun r hr => by
    rw [← h.index]
    exact List.mem_map.2 ⟨r, hr, rfl⟩
  refine ⟨(·.idx), b, sa, sb, h1, ?_⟩
  rw [List.Nodup, List.pairwise_map] at hnd
  refine hnd.imp_of_mem fun {r r'} hr hr' hne => ⟨hne, fun e => hne ?_, fun e => hne ?_⟩
  · refine h.callees _ (hidx r hr) _ (hidx r' hr') (b r) (fun e0 => ?_) (h2 r hr) (by rw [e]; exact h2 r' hr')
    have := (h1 r hr).ownB
    rw [e0] at this
    exact hna _ this
  · refine h.sims _ (hidx r hr) _ (hidx r' hr') ?_
    rw [h3 r hr, h3 r' hr', e]

/-- **C112** in one execution of the story of calls, or of messages, nobody talks to two members, nobody is called
by two members, and no SIM calls twice -/
theorem C112_once_each (hd : c.Distinct) {w w' : World σ γ} (hw : Plays env c w) {i : Nat}
    {ops : List (Op (World σ γ))} {logs : Logs} (hi : (c.chains env fmt)[i]? = some ops)
    (h : World.execute env ops i w = .ok logs w') (o : Orders) (hna : ∀ s, (.na, s) ∉ stockAt o w c.t.simsOf) :
    ∀ t ∈ tablesOf "voice_cdr" logs ++ tablesOf "sms_cdr" logs, OnceEach o w c.t t := by
  have hh := ((exec_step hd hw hi h).2 o).1
  have h0 : ∀ {ls : List Logs} {logId : String}, (∀ id, tablesOf id logs = ls.filterMap (·.get? id)) →
      (∀ id, id ≠ logId → ls.filterMap (·.get? id) = []) → ∀ id, id ≠ logId → tablesOf id logs = [] :=
    fun a b id hid => (a id).trans (b id hid)
  intro t ht
  cases hh with
  | aside quiet _ _ =>
    rw [quiet _ (by decide), quiet _ (by decide)] at ht
    cases ht
  | moved _ _ _ tables h =>
    rw [h0 tables h.quiet _ (by decide), h0 tables h.quiet _ (by decide)] at ht
    cases ht
  | topped _ _ _ _ _ tables h =>
    rw [h0 tables h.quiet _ (by decide), h0 tables h.quiet _ (by decide)] at ht
    cases ht
  | called hrf hrs hp hao ham hac tables h =>
    rw [h0 tables h.quiet "sms_cdr" (by decide), (tables _).trans h.logged, List.append_nil,
      List.mem_singleton] at ht
    subst ht
    exact talk_once hw hrf hrs hp hao ham (by decide) hna h
  | texted hrf hrs hp hao ham hac tables h =>
    rw [h0 tables h.quiet "voice_cdr" (by decide), (tables _).trans h.logged, List.nil_append,
      List.mem_singleton] at ht
    subst ht
    exact talk_once hw hrf hrs hp hao ham (by decide) hna h

/-! ### Moves -/

theorem movesOf_append {a : Val} {l l' : Logs} : movesOf a (l ++ l') = movesOf a l ++ movesOf a l' := by
  simp [movesOf, tablesOf]

theorem follows_append {x y z : Cell} {l l' : List (Cell × Cell)} (h : Follows x l y) (h' : Follows y l' z) :
    Follows x (l ++ l') z := by
  induction l generalizing x with
  | nil =>
    cases h
    exact h'
  | cons m l ih => exact ⟨h.1, ih h.2⟩

/-- **C113** one execution: the logged move of a member begins where the member was and ends where the member is,
which is one of the possible cells of the member, or nowhere if there is none -/
theorem C113_execution (hd : c.Distinct) {w w' : World σ γ} (hw : Plays env c w) {i : Nat}
    {ops : List (Op (World σ γ))} {logs : Logs} (hi : (c.chains env fmt)[i]? = some ops)
    (h : World.execute env ops i w = .ok logs w') (o : Orders) {a : Val} {v : Cell}
    (hv : ValueOf w c.t.subs "CELL" a v) :
    ∃ v', ValueOf w' c.t.subs "CELL" a v' ∧ Follows v (movesOf a logs) v' ∧
      ∀ m ∈ movesOf a logs, ∃ x, m.2 = .scalar x ∧
        ((a, x) ∈ stockAt o w c.places ∨ x = .na ∧ ∀ y, (a, y) ∉ stockAt o w c.places) := by
  have hh := ((exec_step hd hw hi h).2 o).1
  have h0 : ∀ {ls : List Logs} {logId : String}, (∀ id, tablesOf id logs = ls.filterMap (·.get? id)) →
      (∀ id, id ≠ logId → ls.filterMap (·.get? id) = []) → ∀ id, id ≠ logId → tablesOf id logs = [] :=
    fun a b id hid => (a id).trans (b id hid)
  have still : tablesOf "mobility_logs" logs = [] → w'.pops[c.t.subs]? = w.pops[c.t.subs]? →
      ∃ v', ValueOf w' c.t.subs "CELL" a v' ∧ Follows v (movesOf a logs) v' ∧
      ∀ m ∈ movesOf a logs, ∃ x, m.2 = .scalar x ∧
        ((a, x) ∈ stockAt o w c.places ∨ x = .na ∧ ∀ y, (a, y) ∉ stockAt o w c.places) := by
    intro e1 e2
    have e3 : movesOf a logs = [] := by simp [movesOf, e1]
    refine ⟨v, ?_, by rw [e3]; rfl, by simp [e3]⟩
    obtain ⟨p, b, k1, k2, k3⟩ := hv
    exact ⟨p, b, e2.trans k1, k2, k3⟩
  cases hh with
  | aside quiet _ h1 => exact still (quiet _ (by decide)) h1
  | topped _ _ _ _ _ tables h => exact still (h0 tables h.quiet _ (by decide)) (h.others _ hd.subsSims)
  | called _ _ _ _ _ _ tables h => exact still (h0 tables h.quiet _ (by decide)) (h.others _ hd.subsSims)
  | texted _ _ _ _ _ _ tables h => exact still (h0 tables h.quiet _ (by decide)) (h.others _ hd.subsSims)
  | @moved r data p ac ls f tbl p' ac' hrel hp hac tables h =>
    have hwf := hw.wf _ (List.mem_of_getElem? hp)
    rw [valueOf_iff hp hwf hac] at hv
    have e1 : movesOf a logs = (tbl.rows.filter fun r => decide (cell tbl r "A_ID" = .scalar a)).map fun r =>
        (cell tbl r "PREV_CELL", cell tbl r "NEW_CELL") := by
      rw [movesOf, (tables _).trans h.logged]
      simp
    have hidx : ∀ r ∈ tbl.rows, r.idx ∈ f.index := fun r hr => by
      rw [← h.index]
      exact List.mem_map.2 ⟨r, hr, rfl⟩
    have hiff : ∀ r ∈ tbl.rows, decide (cell tbl r "A_ID" = .scalar a) = true ↔ r.idx = a := by
      intro r hr
      rw [decide_eq_true_eq, h.rows r hr _ (by decide), h.own r.idx (hidx r hr)]
      simp
    have hnd : (tbl.rows.map (·.idx)).Nodup := by
      have := h.nodup
      rw [← h.index] at this
      exact this
    by_cases ha : a ∈ f.index
    · have ha' := ha
      rw [← h.index] at ha'
      obtain ⟨x, hx, rfl⟩ := mem_index.1 ha'
      rw [filter_label hnd hx hiff] at e1
      rw [e1]
      refine ⟨cell tbl x "NEW_CELL", ⟨_, _, h.pop, h.cell, ?_⟩, ⟨?_, rfl⟩, ?_⟩
      · rw [h.cells, h.rows x hx _ (by decide)]
        exact .inl ⟨ha, rfl⟩
      · show cell tbl x "PREV_CELL" = v
        rw [h.rows x hx _ (by decide)]
        exact holds_unique (hwf.values _ hac) (h.old _ ha) hv
      · intro m hm
        rw [List.map_cons, List.map_nil, List.mem_singleton] at hm
        subst hm
        obtain ⟨y, hy, hor⟩ := h.new _ ha
        refine ⟨y, (h.rows x hx _ (by decide)).trans hy, ?_⟩
        rcases hor with hor | ⟨hn, hor⟩
        · exact .inl ((mem_stockAt hrel).2 hor)
        · refine .inr ⟨hn, fun z hz => hor ?_⟩
          obtain ⟨wt, hz⟩ := (mem_stockAt hrel).1 hz
          exact ⟨z, wt, hz⟩
    · have e2 : tbl.rows.filter (fun r => decide (cell tbl r "A_ID" = .scalar a)) = [] := by
        rw [List.filter_eq_nil_iff]
        intro r hr e
        exact ha ((hiff r hr).1 e ▸ hidx r hr)
      rw [e2] at e1
      rw [e1]
      exact ⟨v, ⟨_, _, h.pop, h.cell, (h.cells _ _).2 (.inr ⟨ha, hv⟩)⟩, rfl, by simp⟩

/-- the six stories keep the circus as it should be, and the relationships -/
theorem played_plays (hd : c.Distinct) {w w' : World σ γ} {evs : List (Int × Event)}
    (h : Played env (c.chains env fmt) w evs w') (hw : Plays env c w) :
    Plays env c w' ∧ (∀ name ∈ ["OPERATOR", "MSISDN"], ∀ s v,
      ValueOf w' c.t.sims name s v ↔ ValueOf w c.t.sims name s v) ∧
    ∀ o, ∀ j ∈ c.rels, (stockAt o w' j).Perm (stockAt o w j) := by
  induction h with
  | nil w => exact ⟨hw, fun _ _ _ _ => Iff.rfl, fun _ _ _ => .refl _⟩
  | @exec w w1 w' evs i ops logs hi h rest ih =>
    obtain ⟨h1, h2⟩ := exec_step hd hw hi h
    obtain ⟨h3, h4, h5⟩ := ih h1
    exact ⟨h3, fun n hn s v => (h4 n hn s v).trans (C110_numbers_kept hd hw hi h hn s v),
      fun o j hj => (h5 o j hj).trans ((h2 o).2 j hj)⟩
  | @tick w w' evs rest ih =>
    exact ih ⟨hw.wf, hw.ids, hw.fields, hw.rels, hw.sims, hw.subs⟩

/-- **C113** In any run of the six stories: the logged moves of a member lead from the cell that the member had at
the beginning to the one at the end, each move beginning where the one before it ended, and to possible cells of
the member only. -/
theorem C113_journal (hd : c.Distinct) {w w' : World σ γ} {evs : List (Int × Event)}
    (h : Played env (c.chains env fmt) w evs w') (hw : Plays env c w) (o : Orders) {a : Val} {v : Cell}
    (hv : ValueOf w c.t.subs "CELL" a v) :
    ∃ v', ValueOf w' c.t.subs "CELL" a v' ∧ Follows v (movesOf a (emitted evs)) v' ∧
      ∀ m ∈ movesOf a (emitted evs), ∃ x, m.2 = .scalar x ∧
        ((a, x) ∈ stockAt o w c.places ∨ x = .na ∧ ∀ y, (a, y) ∉ stockAt o w c.places) := by
  induction h generalizing v with
  | nil w => exact ⟨v, hv, rfl, by simp [emitted, movesOf, tablesOf]⟩
  | @exec w w1 w' evs i ops logs hi h rest ih =>
    have e : emitted ((w.clock.current, Event.exec i logs) :: evs) = logs ++ emitted evs := rfl
    rw [e, movesOf_append]
    obtain ⟨v1, h1, h2, h3⟩ := C113_execution hd hw hi h o hv
    obtain ⟨k1, k2⟩ := exec_step hd hw hi h
    obtain ⟨v2, h4, h5, h6⟩ := ih k1 h1
    have hp := ((k2 o).2 c.places (by simp [Cast.rels]))
    refine ⟨v2, h4, follows_append h2 h5, fun m hm => ?_⟩
    rcases List.mem_append.1 hm with hm | hm
    · exact h3 m hm
    · obtain ⟨x, e1, hx⟩ := h6 m hm
      refine ⟨x, e1, ?_⟩
      simpa only [hp.mem_iff] using hx
  | @tick w w' evs rest ih =>
    exact ih ⟨hw.wf, hw.ids, hw.fields, hw.rels, hw.sims, hw.subs⟩ hv

/-- **C111** In any run of the six stories, each record of a call or of a message tells of a caller and a callee
who are friends, with the numbers and the operators of SIMs of theirs: with the same operator if they have one in
common. The cells are those where the two were when the record was logged, in a world `u` of the run. -/
theorem C111_run (hd : c.Distinct) {w w' : World σ γ} {evs : List (Int × Event)}
    (h : Played env (c.chains env fmt) w evs w') (hw : Plays env c w) (o : Orders)
    (hna : ∀ s, (.na, s) ∉ stockAt o w c.t.simsOf) :
    (∀ t ∈ tablesOf "voice_cdr" (emitted evs), ∃ e1 e2 u, evs = e1 ++ e2 ∧
      Played env (c.chains env fmt) w e1 u ∧ Talks o u c.t CallPrice t) ∧
    ∀ t ∈ tablesOf "sms_cdr" (emitted evs), ∃ e1 e2 u, evs = e1 ++ e2 ∧
      Played env (c.chains env fmt) w e1 u ∧ Talks o u c.t SmsPrice t := by
  induction h with
  | nil w => constructor <;> intro t ht <;> cases ht
  | @exec w w1 w' evs i ops logs hi h rest ih =>
    have e : emitted ((w.clock.current, Event.exec i logs) :: evs) = logs ++ emitted evs := rfl
    have e' : ∀ id, tablesOf id (logs ++ emitted evs) = tablesOf id logs ++ tablesOf id (emitted evs) := by
      simp [tablesOf]
    obtain ⟨k1, k2⟩ := exec_step hd hw hi h
    obtain ⟨h1, h2⟩ := C111_records hd hw hi h o hna
    obtain ⟨h3, h4⟩ := ih k1 fun s hs => hna s
      (((k2 o).2 c.t.simsOf (by simp [Cast.rels])).mem_iff.1 hs)
    rw [e]
    simp only [e', List.mem_append]
    constructor
    · rintro t (ht | ht)
      · exact ⟨[], _, w, rfl, .nil w, h1 t ht⟩
      · obtain ⟨e1, e2, u, rfl, h5, h6⟩ := h3 t ht
        exact ⟨_ :: e1, e2, u, rfl, .exec hi h h5, h6⟩
    · rintro t (ht | ht)
      · exact ⟨[], _, w, rfl, .nil w, h2 t ht⟩
      · obtain ⟨e1, e2, u, rfl, h5, h6⟩ := h4 t ht
        exact ⟨_ :: e1, e2, u, rfl, .exec hi h h5, h6⟩
  | @tick w w' evs rest ih =>
    obtain ⟨h3, h4⟩ := ih ⟨hw.wf, hw.ids, hw.fields, hw.rels, hw.sims, hw.subs⟩ hna
    constructor
    · intro t ht
      obtain ⟨e1, e2, u, rfl, h5, h6⟩ := h3 t ht
      exact ⟨_ :: e1, e2, u, rfl, .tick h5, h6⟩
    · intro t ht
      obtain ⟨e1, e2, u, rfl, h5, h6⟩ := h4 t ht
      exact ⟨_ :: e1, e2, u, rfl, .tick h5, h6⟩

/-- **C111** what a record says of SIMs, numbers and operators is so at the beginning as well -/
theorem C111_constant (hd : c.Distinct) {w w' : World σ γ} {evs : List (Int × Event)}
    (h : Played env (c.chains env fmt) w evs w') (hw : Plays env c w) (o : Orders) :
    (∀ name ∈ ["OPERATOR", "MSISDN"], ∀ s v,
      ValueOf w' c.t.sims name s v ↔ ValueOf w c.t.sims name s v) ∧
    ∀ j ∈ c.rels, (stockAt o w' j).Perm (stockAt o w j) :=
  ⟨(played_plays hd h hw).2.1, (played_plays hd h hw).2.2 o⟩

/-! ### Top-ups -/

/-- **C114** what a record of a top-up says: the number and the operator of a SIM, an agent of the SIM, the amount,
the account before and after -/
theorem C114_topup (hd : c.Distinct) {w w' : World σ γ} (hw : Plays env c w) {i : Nat}
    {ops : List (Op (World σ γ))} {logs : Logs} (hi : (c.chains env fmt)[i]? = some ops)
    (h : World.execute env ops i w = .ok logs w') (o : Orders) :
    ∀ t ∈ tablesOf "topups" logs, (t.rows.map (·.idx)).Nodup ∧ ∀ r ∈ t.rows,
      ValueOf w c.t.sims "MSISDN" r.idx (cell t r "CUSTOMER_NUMBER") ∧
      ValueOf w c.t.sims "OPERATOR" r.idx (cell t r "OPERATOR") ∧
      cell t r "VALUE" = .num 1000 ∧
      ValueOf w c.t.sims "MAIN_ACCT" r.idx (cell t r "MAIN_ACCT_OLD") ∧
      ValueOf w' c.t.sims "MAIN_ACCT" r.idx (cell t r "MAIN_ACCT") ∧
      (∀ q : Rat, cell t r "MAIN_ACCT_OLD" = .num q → cell t r "MAIN_ACCT" = .num (q + 1000)) ∧
      ∃ x, cell t r "AGENT" = .scalar x ∧ ((r.idx, x) ∈ stockAt o w c.agents ∨
        x = .na ∧ ∀ y, (r.idx, y) ∉ stockAt o w c.agents) := by
  have hh := ((exec_step hd hw hi h).2 o).1
  have h0 : ∀ {ls : List Logs} {logId : String}, (∀ id, tablesOf id logs = ls.filterMap (·.get? id)) →
      (∀ id, id ≠ logId → ls.filterMap (·.get? id) = []) → ∀ id, id ≠ logId → tablesOf id logs = [] :=
    fun a b id hid => (a id).trans (b id hid)
  intro t ht
  cases hh with
  | aside quiet _ _ =>
    rw [quiet _ (by decide)] at ht
    cases ht
  | moved _ _ _ tables h =>
    rw [h0 tables h.quiet _ (by decide)] at ht
    cases ht
  | called _ _ _ _ _ _ tables h =>
    rw [h0 tables h.quiet _ (by decide)] at ht
    cases ht
  | texted _ _ _ _ _ _ tables h =>
    rw [h0 tables h.quiet _ (by decide)] at ht
    cases ht
  | topped hrel hp hao ham hac tables h =>
    rw [(tables _).trans h.logged, List.mem_singleton] at ht
    subst ht
    refine ⟨by have := h.nodup; rw [← h.index] at this; exact this, fun r hr => ?_⟩
    have hr' : r.idx ∈ t.index := List.mem_map.2 ⟨r, hr, rfl⟩
    replace hr' := h.index ▸ hr'
    have e := h.rows r hr
    rw [e _ (by decide), e _ (by decide), e _ (by decide), e _ (by decide), e _ (by decide), e _ (by decide)]
    refine ⟨⟨_, _, hp, ham, h.number _ hr'⟩, ⟨_, _, hp, hao, h.operator _ hr'⟩, h.value _ hr',
      ⟨_, _, hp, hac, h.old _ hr'⟩, ⟨_, _, h.pop, h.acct, (h.accounts _ _).2 (.inl ⟨hr', rfl⟩)⟩, fun q hq => ?_, ?_⟩
    · have := h.new _ hr'
      rw [hq, h.value _ hr'] at this
      injection this with this
      exact this.symm.trans (congrArg Cell.num (add_comm _ _))
    · obtain ⟨x, hx, hor⟩ := h.agent _ hr'
      refine ⟨x, hx, ?_⟩
      rcases hor with hor | ⟨hn, hor⟩
      · exact .inl ((mem_stockAt hrel).2 hor)
      · refine .inr ⟨hn, fun z hz => hor ?_⟩
        obtain ⟨wt, hz⟩ := (mem_stockAt hrel).1 hz
        exact ⟨z, wt, hz⟩

end Cdr
end Trumania
