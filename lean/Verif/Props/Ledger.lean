import Verif.Spec.Ledger
import Verif.Props.Stock

/-!
# Property C104 (the logs are an account of the stock)
-/

namespace Trumania
open Spec World Relationship
variable {σ γ : Type} {env : Env σ γ} {l : Ledger}

/-- what the execution of a story leaves in relationships and logs -/
theorem execute_runs {ops : List (Op (World σ γ))} {i : Nat} {w w' : World σ γ} {logs : Logs}
    {s : Story σ} (hs : w.stories[i]? = some s) (h : World.execute env ops i w = .ok logs w') :
    (w'.rels = w.rels ∧ logs = []) ∨ ∃ w1 out ls, w'.rels = w1.rels ∧
      Runs ops ⟨[s.idField], actingRows s⟩ (started w i s) out ls w1 ∧
      ∀ id, tablesOf id logs = (foldVals Frame.concat (ls.filterMap (·.get? id))).toList := by
  obtain ⟨s0, w1, s1, s', hs0, ⟨s2, hs2, hafter⟩, -, -, hrest, -⟩ := execute_ok h
  rw [hs] at hs2
  cases hs2
  rcases hafter with ⟨-, rfl, rfl⟩ | ⟨-, last, h5⟩
  · exact .inl ⟨hrest.rels, rfl⟩
  · obtain ⟨hwf, ls, hr, hl⟩ := (chain_sequential env.logSet _ _ last _ w1).1 logs h5
    exact .inr ⟨w1, last, ls, hrest.rels, hr, fun id => by rw [tablesOf_dict hwf, hl]⟩

/-- what is logged in two fields is what the rows have in them -/
theorem logged_fields {logId : String} {cols : List String} {a b : String} {data out : Frame} {logs : Logs}
    {w w' : World σ γ} (hc : cols = [] ∨ a ∈ cols ∧ b ∈ cols)
    (h : Ops.fieldLogger logId cols [] data w = .ok (out, logs) w') :
    w' = w ∧ out = data ∧ ∃ t, logs = [(logId, t)] ∧
      t.rows.map (fun r => (cell t r a, cell t r b)) =
        data.rows.map fun r => (cell data r a, cell data r b) := by
  obtain ⟨logged, h1, h2, rfl⟩ := fieldLogger_eq_ok.1 h
  cases h2
  refine ⟨rfl, rfl, logged, rfl, ?_⟩
  simp only [Ops.loggedData, Ops.explode, Ops.loggerCols, List.append_nil, if_true] at h1
  have h1 : (if cols = [] then Except.ok data else data.select cols) = .ok logged := h1
  by_cases hn : cols = []
  · rw [if_pos hn] at h1
    cases h1
    rfl
  · rw [if_neg hn] at h1
    obtain ⟨ha, hb⟩ := hc.resolve_left hn
    obtain ⟨e1, e2⟩ := Frame.select_ok h1
    have key : ∀ name ∈ cols, ∀ r : Row, cell logged ⟨r.idx, cols.map (cell data r)⟩ name =
        cell data r name := by
      intro name hname r
      rw [cell, e1]
      have : ∀ l : List String, name ∈ l → (l.zip (l.map (cell data r))).find?
          (fun x => decide (x.1 = name)) = some (name, cell data r name) := by
        intro l hl
        induction l with
        | nil => simp at hl
        | cons c l ih =>
          simp only [List.map_cons, List.zip_cons_cons, List.find?_cons]
          by_cases hn : c = name
          · simp [hn]
          · simp only [hn, decide_false]
            exact ih ((List.mem_cons.1 hl).resolve_left fun e => hn e.symm)
      simp only [this cols hname]
    rw [e2, List.map_map]
    refine List.map_congr_left fun r _ => ?_
    simp only [Function.comp, key a ha, key b hb]

/-- rows and two fields kept -/
theorem kept_fields {A : String → Prop} {D : Nat → Prop} {L : String → Prop} {a b : String}
    (ha : ∀ c, A c → Clear a c) (hb : ∀ c, A c → Clear b c) {ops : List (Op (World σ γ))}
    (hops : ∀ op ∈ ops, OpWithin env (fun _ => True) (fun _ => True) A D L op)
    (hk : ∀ op ∈ ops, KeepsRows env (fun _ => True) (fun _ => True) op)
    {data out : Frame} {ls : List Logs} {w w' : World σ γ} (hr : Rect data) (hn : data.index.Nodup)
    (h : Runs ops data w out ls w') :
    Rect out ∧ out.index = data.index ∧ out.rows.map (fun r => (cell out r a, cell out r b)) =
      data.rows.map fun r => (cell data r a, cell data r b) := by
  obtain ⟨h1, h2⟩ := C82_field_kept ha hops hr h
  obtain ⟨-, h3⟩ := C82_field_kept hb hops hr h
  have h4 := runs_keepsRows hk hn h
  refine ⟨h1, h4, map_eq_of_labels hn h4 fun r' hr' => ?_⟩
  obtain ⟨r, k1, k2, k3⟩ := h2.2 r' hr'
  obtain ⟨u, u1, u2, u3⟩ := h3.2 r' hr'
  obtain rfl : u = r := List.inj_on_of_nodup_map hn u1 k1 (u2.trans k2.symm)
  exact ⟨u, k1, k2, by rw [k3, u3]⟩

theorem held_eq {o : Orders} {w w' : World σ γ} {a : Nat} (h : (stockAt o w' a).Perm (stockAt o w a))
    (d : Val) : held o w' a d = held o w a d := h.countP_eq _

theorem soldBy_nil {logId giver item : String} {d : Val} {logs : Logs} (h : tablesOf logId logs = []) :
    soldBy logId giver item d logs = 0 := by rw [soldBy, h]; rfl

theorem receivedBy_nil {logId taker qty : String} {d : Val} {logs : Logs}
    (h : tablesOf logId logs = []) : receivedBy logId taker qty d logs = 0 := by rw [receivedBy, h]; rfl

/-- the rows that `one_to_one` selection with `pop` gives, as (giver, item) pairs, are those that the
stock loses -/
theorem popped_pairs {a : Nat} {giver item : String} {discard : Bool} {weight : Option (Dict Val Rat)}
    {data out : Frame} {logs : Logs} {w w' : World σ γ} (hn : data.index.Nodup) (hr : Rect data)
    (hitem : item ∉ data.cols) (hclear : Clear giver item) (hok : StocksOk env [a] w) (o : Orders)
    (h : Ops.selectOne env a giver item true true discard weight data w = .ok (out, logs) w') :
    logs = [] ∧ Rect out ∧ out.index.Nodup ∧ StocksOk env [a] w' ∧ ∃ given : List (Val × Val),
      (stockAt o w a).Perm (stockAt o w' a ++ given) ∧
      ∀ p : Val × Val → Bool, (∀ f, p (f, .na) = false) →
        (out.rows.map fun r => (idIn (cell out r giver), idIn (cell out r item))).countP p =
          given.countP p := by
  obtain ⟨r, hra, hreach⟩ := hok a (by simp)
  have hkept := within_kept (env := env) (F := fun _ => True) (Z := fun _ => True) (D := fun _ => True)
    (L := fun _ => True) (A := Clear giver) (name := giver) (fun _ h => h)
    (.selectOne a giver item true true discard weight hclear) h hr
  have hidx := builtIn_index (env := env) (F := fun _ => True) (Z := fun _ => True)
    (.selectOne _ _ _ _ _ _ _) h hn
  obtain ⟨c0, c1, r', chosen, rfl, hr', c2, c3, c4, c5, c6, -, c7⟩ := C92_select_one hn hra hreach o h
  obtain ⟨removed, p1, p2, p3, p4⟩ := c7 rfl
  have hlt := (List.getElem?_eq_some_iff.1 hra).1
  set L := data.rows.filterMap fun x => ((chosen x).bind id).map fun t =>
    (idIn (cell data x giver), t) with hL
  have hmemL : ∀ f t, (f, t) ∈ L ↔ ∃ x ∈ data.rows, idIn (cell data x giver) = f ∧
      chosen x = some (some t) := by
    intro f t
    simp only [hL, List.mem_filterMap]
    constructor
    · rintro ⟨x, hx, he⟩
      obtain ⟨t', ht, he⟩ := Option.map_eq_some_iff.1 he
      cases he
      cases hu : chosen x with
      | none => rw [hu] at ht; cases ht
      | some u => rw [hu] at ht; cases ht; exact ⟨x, hx, rfl, hu⟩
    · rintro ⟨x, hx, rfl, hu⟩
      exact ⟨x, hx, by rw [hu]; rfl⟩
  have hLnd : L.Nodup := by
    rw [hL, List.Nodup, List.pairwise_filterMap]
    have hval : ∀ x b, ((chosen x).bind id).map (fun t => (idIn (cell data x giver), t)) = some b →
        chosen x = some (some b.2) := by
      intro x b he
      obtain ⟨t', ht, he⟩ := Option.map_eq_some_iff.1 he
      cases he
      cases hu : chosen x with
      | none => rw [hu] at ht; cases ht
      | some u => rw [hu] at ht; cases ht; rfl
    refine List.Pairwise.imp_of_mem ?_ (List.Nodup.of_map _ hn)
    rintro x y hx hy hne b hb b' hb' rfl
    exact hne (c6 rfl x hx y hy _ (hval x b hb) (hval y b hb'))
  have hperm : (removed.map fun x => (x.1, x.2.1)).Perm L := by
    refine (List.perm_ext_iff_of_nodup (p4 rfl) hLnd).2 ?_
    rintro ⟨f, t⟩
    rw [p2, hmemL]
  refine ⟨c0, hkept.1, hidx.1, ?_, L, ?_, ?_⟩
  · intro i hi
    rw [List.mem_singleton] at hi
    subst hi
    exact ⟨_, List.getElem?_set_self hlt, hr'⟩
  · have := p1.map fun x => (x.1, x.2.1)
    rw [List.map_append] at this
    rw [stockAt_of hra, stockAt_of (List.getElem?_set_self hlt)]
    exact this.trans (hperm.append_left _)
  · intro p hp
    have hc1 := c1 hitem
    have hrow : ∀ x ∈ data.rows, ∀ t : Option Val, chosen x = some t →
        idIn (cell out ⟨x.idx, x.cells ++ [.scalar (t.getD .na)]⟩ giver) = idIn (cell data x giver) ∧
        idIn (cell out ⟨x.idx, x.cells ++ [.scalar (t.getD .na)]⟩ item) = t.getD .na := by
      intro x hx t ht
      constructor
      · have hm : (⟨x.idx, x.cells ++ [.scalar (t.getD .na)]⟩ : Row) ∈ out.rows := by
          rw [c2]
          exact List.mem_filterMap.2 ⟨x, hx, by rw [ht]; rfl⟩
        obtain ⟨x', hx', e1, e2⟩ := hkept.2.2 _ hm
        obtain rfl : x' = x := List.inj_on_of_nodup_map hn hx' hx e1
        exact congrArg idIn e2
      · rw [Frame.cell_append_right (f := data) (g := ⟨[item], []⟩) (a := x)
          (b := ⟨x.idx, [.scalar (t.getD .na)]⟩) hc1 (hr x hx) rfl hitem]
        simp [cell, idIn]
    have e : (out.rows.map fun r => (idIn (cell out r giver), idIn (cell out r item))) =
        data.rows.filterMap fun x => (chosen x).map fun t => (idIn (cell data x giver), t.getD .na) := by
      conv_lhs => rw [show out.rows = _ from c2]
      rw [List.map_filterMap]
      refine List.filterMap_congr fun x hx => ?_
      cases hu : chosen x with
      | none => rfl
      | some t =>
        obtain ⟨q1, q2⟩ := hrow x hx t hu
        simp only [Option.map_some, q1, q2]
    rw [e, hL]
    clear * - hp
    induction data.rows with
    | nil => rfl
    | cons x rows ih =>
      rw [List.filterMap_cons, List.filterMap_cons]
      cases chosen x with
      | none => simpa using ih
      | some t =>
        cases t with
        | none => simpa [hp] using ih
        | some t => simp only [Option.map_some, Option.bind_some, id, Option.getD_some, List.countP_cons, ih]

/-- the operations of a story that leaves the account alone -/
theorem aside_runs {A : String → Prop} {ops : List (Op (World σ γ))} (hops : ∀ op ∈ ops, l.Aside env A op)
    {data out : Frame} {ls : List Logs} {w w' : World σ γ} (hok : StocksOk env [l.stock] w) (o : Orders)
    (h : Runs ops data w out ls w') :
    StocksOk env [l.stock] w' ∧ (stockAt o w' l.stock).Perm (stockAt o w l.stock) ∧
      ls.filterMap (·.get? l.saleLog) = [] ∧ ls.filterMap (·.get? l.deliveryLog) = [] := by
  obtain ⟨h1, h2⟩ := (runs_apart (fun op hop => (hops op hop).1) h).stockAt hok
  exact ⟨h1, h2 o _ (by simp), runs_quiet (fun op hop => (hops op hop).2) (fun h => h.1 rfl) h,
    runs_quiet (fun op hop => (hops op hop).2) (fun h => h.2 rfl) h⟩

theorem aside_builtIn {A : String → Prop} {op : Op (World σ γ)} (h : l.Aside env A op) :
    BuiltIn env (fun _ => True) (fun _ => True) op := h.2.builtIn

/-- **C104** one execution of a story that sells: for each owner, the logged sales are at most what the
owner's stock lost, and exactly that if the owner holds no empty item. No delivery is logged. -/
theorem C104_sale {idField : String} {ops : List (Op (World σ γ))} (hops : l.Sells env idField ops)
    {data out : Frame} {ls : List Logs} {w w' : World σ γ} (hcols : data.cols = [idField])
    (hr : Rect data) (hn : data.index.Nodup) (hok : StocksOk env [l.stock] w) (o : Orders)
    (h : Runs ops data w out ls w') :
    StocksOk env [l.stock] w' ∧ ls.filterMap (·.get? l.deliveryLog) = [] ∧
    (∀ p ∈ stockAt o w' l.stock, p ∈ stockAt o w l.stock) ∧
    ∃ t, ls.filterMap (·.get? l.saleLog) = [t] ∧ ∀ owner,
      held o w' l.stock owner + l.sold owner [(l.saleLog, t)] ≤ held o w l.stock owner ∧
      (NoEmptyItem o w l.stock owner →
        held o w' l.stock owner + l.sold owner [(l.saleLog, t)] = held o w l.stock owner) := by
  obtain ⟨pre, mid, post, cols, discard, weight, rfl, hc, hid, hclear, hpre, hmid, hpost⟩ := hops
  obtain ⟨d1, w1, l1, lb, r1, r2, rfl⟩ := runs_split h
  cases r2 with
  | @cons _ _ _ d2 _ _ w2 _ la ls1 ha r3 =>
  obtain ⟨d3, w3, l2, lc, r4, r5, rfl⟩ := runs_split r3
  cases r5 with
  | @cons _ _ _ d4 _ _ w4 _ lf l3 hf r6 =>
  obtain ⟨ok1, s1, q1, q1'⟩ := aside_runs hpre hok o r1
  obtain ⟨rect1, k1⟩ := C82_field_kept (fun _ h => h) (fun op hop => (hpre op hop).2) hr r1
  obtain ⟨nd1, -⟩ := C44_at_each_point (fun op hop => aside_builtIn (hpre op hop)) hn r1
  have hitem : l.item ∉ d1.cols := by
    rw [k1.1, hcols]
    simpa using hid
  obtain ⟨rfl, rect2, nd2, ok2, given, s2, hcount⟩ := popped_pairs nd1 rect1 hitem hclear ok1 o ha
  obtain ⟨-, -, e3⟩ := kept_fields (fun _ h => h.1) (fun _ h => h.2)
    (fun op hop => (hmid op hop).1.2) (fun op hop => (hmid op hop).2) rect2 nd2 r4
  obtain ⟨ok3, s3, q3, q3'⟩ := aside_runs (fun op hop => (hmid op hop).1) ok2 o r4
  obtain ⟨rfl, rfl, t, rfl, e4⟩ := logged_fields hc hf
  obtain ⟨ok5, s5, q5, q5'⟩ := aside_runs hpost ok3 o r6
  have hlne := l.logs_ne
  refine ⟨ok5, ?_, fun p hp => ?_, t, ?_, fun owner => ?_⟩
  · simp [List.filterMap_append, List.filterMap_cons, q1', q3', q5', Dict.get?, hlne]
  · exact s1.mem_iff.1 (s2.mem_iff.2 (List.mem_append.2 (.inl (s3.mem_iff.1 (s5.mem_iff.1 hp)))))
  · simp [List.filterMap_append, List.filterMap_cons, q1, q3, q5, Dict.get?]
  have hsold : l.sold owner [(l.saleLog, t)] =
      given.countP fun p => decide (p.1 = owner ∧ p.2 ≠ .na) := by
    rw [← hcount _ (by simp)]
    have e := congrArg (List.map fun c : Cell × Cell => (idIn c.1, idIn c.2)) (e4.trans e3)
    simp only [List.map_map] at e
    have e : (t.rows.map fun r => (idIn (cell t r l.giver), idIn (cell t r l.item))) =
      d2.rows.map fun r => (idIn (cell d2 r l.giver), idIn (cell d2 r l.item)) := e
    rw [← e, List.countP_map]
    simp [Ledger.sold, soldBy, tablesOf, Function.comp_def]
  have hheld : held o w' l.stock owner + given.countP (fun p => decide (p.1 = owner)) =
      held o w l.stock owner := by
    rw [held_eq s5, held_eq s3, held, held, ← s1.countP_eq, s2.countP_eq, List.countP_append]
  rw [hsold]
  have hle : (given.countP fun p => decide (p.1 = owner ∧ p.2 ≠ .na)) ≤
      given.countP fun p => decide (p.1 = owner) :=
    List.countP_mono_left fun p _ hp => by simp at hp ⊢; exact hp.1
  refine ⟨by omega, fun hne => ?_⟩
  have : (given.countP fun p => decide (p.1 = owner ∧ p.2 ≠ .na)) =
      given.countP fun p => decide (p.1 = owner) := by
    refine List.countP_congr fun p hp => ?_
    have : p ∈ stockAt o w l.stock := s1.mem_iff.1 (s2.mem_iff.2 (List.mem_append.2 (.inr hp)))
    simpa using hne p this
  omega

theorem addGrouped_lists {rel : Nat} {fromField groupedField : String} {data out : Frame} {logs : Logs}
    {w w' : World σ γ} (h : Ops.relAddGrouped env rel fromField groupedField data w = .ok (out, logs) w') :
    ∀ r ∈ data.rows, ∃ items, cell data r groupedField = .list items := by
  obtain ⟨-, h'⟩ := onRel_eq_ok h
  rcases h' with ⟨he, -⟩ | ⟨_, _, -, -, h3, -⟩
  · rw [he]; simp
  · obtain ⟨cs, h4, h5⟩ := bind_eq_ok.1 h3
    obtain ⟨items, h6, -⟩ := bind_eq_ok.1 h5
    rw [Frame.col_eq_map h4] at h6
    intro r hr
    obtain ⟨i, -, hi⟩ := forall₂_exists_right (mapM_ok_iff.1 h6) (List.mem_map.2 ⟨r, hr, rfl⟩)
    cases hc : cell data r groupedField with
    | list vs => exact ⟨vs, rfl⟩
    | scalar v => rw [hc] at hi; cases hi

/-- **C104** one execution of a story that delivers: for each owner, the logged quantities are exactly what
the owner's stock gained. No sale is logged. -/
theorem C104_delivery {idField : String} {ops : List (Op (World σ γ))}
    (hops : l.Delivers env idField ops) {data out : Frame} {ls : List Logs} {w w' : World σ γ}
    (hcols : data.cols = [idField]) (hr : Rect data) (hn : data.index.Nodup)
    (hok : StocksOk env [l.stock] w) (o : Orders) (h : Runs ops data w out ls w') :
    StocksOk env [l.stock] w' ∧ ls.filterMap (·.get? l.saleLog) = [] ∧
    ∃ t, ls.filterMap (·.get? l.deliveryLog) = [t] ∧
      (∀ p ∈ stockAt o w' l.stock, p ∈ stockAt o w l.stock ∨
        ∃ r ∈ t.rows, idIn (cell t r l.taker) = p.1) ∧ ∀ owner,
      (held o w' l.stock owner : Rat) =
        held o w l.stock owner + l.received owner [(l.deliveryLog, t)] := by
  obtain ⟨pre, mid, mid', post, cols, items, f, rfl, hc, hf, hid, hclear, hpre, hmid, hmid', hpost⟩ := hops
  obtain ⟨d1, w1, l1, lb, r1, r2, rfl⟩ := runs_split h
  cases r2 with
  | @cons _ _ _ d2 _ _ w2 _ la ls1 ha r3 =>
  obtain ⟨d3, w3, l2, lc, r4, r5, rfl⟩ := runs_split r3
  cases r5 with
  | @cons _ _ _ d4 _ _ w4 _ lg l3 hg r6 =>
  obtain ⟨d5, w5, l4, ld, r7, r8, rfl⟩ := runs_split r6
  cases r8 with
  | @cons _ _ _ d6 _ _ w6 _ lh l5 hl r9 =>
  obtain ⟨ok1, s1, q1, q1'⟩ := aside_runs hpre hok o r1
  obtain ⟨rect1, k1⟩ := C82_field_kept (fun _ h => h) (fun op hop => (hpre op hop).2) hr r1
  obtain ⟨nd1, -⟩ := C44_at_each_point (fun op hop => aside_builtIn (hpre op hop)) hn r1
  have hqty : l.qty ∉ d1.cols := by
    rw [k1.1, hcols]
    simpa using hid
  obtain ⟨rel, hrel, hreach⟩ := ok1 _ (List.mem_singleton.2 rfl)
  have hlt := (List.getElem?_eq_some_iff.1 hrel).1
  have hlists := addGrouped_lists ha
  obtain ⟨rfl, rfl, rel', rfl, hreach', hadd⟩ := C93_add_grouped hrel hreach o o ha
  have ok2 : StocksOk env [l.stock] { w1 with rels := w1.rels.set l.stock rel' } := by
    intro i hi
    rw [List.mem_singleton] at hi
    subst hi
    exact ⟨_, List.getElem?_set_self hlt, hreach'⟩
  have s2 : (stockAt o { w1 with rels := w1.rels.set l.stock rel' } l.stock).Perm
      (stockAt o w1 l.stock ++ d2.rows.flatMap fun x =>
        (listIn (cell d2 x items)).map fun t => (idIn (cell d2 x l.taker), t)) := by
    rw [stockAt_of (r := rel') (List.getElem?_set_self hlt), stockAt_of hrel]
    have := hadd.map fun x => (x.1, x.2.1)
    rw [List.map_append, List.map_flatMap] at this
    simpa [List.map_map, Function.comp_def] using this
  obtain ⟨rect3, i3, e3⟩ := kept_fields (a := l.taker) (b := items) (fun _ h => h.1) (fun _ h => h.2.2)
    (fun op hop => (hmid op hop).1.2) (fun op hop => (hmid op hop).2) rect1 nd1 r4
  obtain ⟨-, kq⟩ := C82_field_kept (name := l.qty) (fun _ h => h.2.1) (fun op hop => (hmid op hop).1.2)
    rect1 r4
  obtain ⟨ok3, s3, q3, q3'⟩ := aside_runs (fun op hop => (hmid op hop).1) ok2 o r4
  have nd3 : d3.index.Nodup := i3 ▸ nd1
  have hqty3 : l.qty ∉ d3.cols := fun hm => hqty (kq.1.1 hm)
  obtain ⟨rect4, kt⟩ := adder_kept (env := env) (name := l.taker) (.applySeries [items] f) hclear hg rect3
  obtain ⟨rfl, rfl, values, hv, hadds⟩ := C91_apply_series nd3 rect3 hqty3 hg
  have hv := hf _ _ (by
    rw [Frame.cellsOf_eq]
    intro c hcm
    obtain ⟨r, hrm, rfl⟩ := List.mem_map.1 hcm
    have : (cell d3 r l.taker, cell d3 r items) ∈ d2.rows.map fun r => (cell d2 r l.taker, cell d2 r items) := by
      rw [← e3]
      exact List.mem_map.2 ⟨r, hrm, rfl⟩
    obtain ⟨r2, hr2, e⟩ := List.mem_map.1 this
    rw [← (Prod.mk.inj e).2]
    exact hlists r2 hr2) hv
  have nd4 : d4.index.Nodup := hadds.index ▸ nd3
  obtain ⟨-, -, e5⟩ := kept_fields (a := l.taker) (b := l.qty) (fun _ h => h.1) (fun _ h => h.2)
    (fun op hop => (hmid' op hop).1.2) (fun op hop => (hmid' op hop).2) rect4 nd4 r7
  obtain ⟨ok5, s5, q5, q5'⟩ := aside_runs (fun op hop => (hmid' op hop).1) ok3 o r7
  obtain ⟨rfl, rfl, t, rfl, e6⟩ := logged_fields hc hl
  obtain ⟨ok7, s7, q7, q7'⟩ := aside_runs hpost ok5 o r9
  have hlne := l.logs_ne.symm
  suffices hgoal : (∀ p ∈ stockAt o w' l.stock, p ∈ stockAt o w l.stock ∨
      ∃ r ∈ t.rows, idIn (cell t r l.taker) = p.1) ∧ ∀ owner,
      (held o w' l.stock owner : Rat) =
        held o w l.stock owner + l.received owner [(l.deliveryLog, t)] by
    refine ⟨ok7, ?_, t, ?_, hgoal⟩
    · simp [List.filterMap_append, List.filterMap_cons, q1, q3, q5, q7, Dict.get?, hlne]
    · simp [List.filterMap_append, List.filterMap_cons, q1', q3', q5', q7', Dict.get?]
  -- the logged quantities
  have e4 : (d4.rows.map fun r => (cell d4 r l.taker, cell d4 r l.qty)) =
      d3.rows.map fun r => (cell d3 r l.taker, .num ((listIn (cell d3 r items)).length : Rat)) := by
    have h1 : (d4.rows.map fun r => cell d4 r l.taker) = d3.rows.map fun r => cell d3 r l.taker :=
      map_eq_of_labels nd3 hadds.index kt.2
    have h2 : (d4.rows.map fun r => cell d4 r l.qty) =
        d3.rows.map fun r => .num ((listIn (cell d3 r items)).length : Rat) := by
      have := hadds.added
      rw [hv, Frame.cellsOf_eq, Frame.cellsOf_eq, List.map_map] at this
      exact this
    have := congrArg₂ List.zip h1 h2
    rwa [List.zip_map', List.zip_map'] at this
  have e7 : (t.rows.map fun r => (idIn (cell t r l.taker), numIn (cell t r l.qty))) =
      d2.rows.map fun r => (idIn (cell d2 r l.taker), ((listIn (cell d2 r items)).length : Rat)) := by
    have a1 := congrArg (List.map fun c : Cell × Cell => (idIn c.1, numIn c.2)) (e6.trans (e5.trans e4))
    have a2 := congrArg (List.map fun c : Cell × Cell => (idIn c.1, ((listIn c.2).length : Rat))) e3
    simp only [List.map_map] at a1 a2
    exact a1.trans a2
  refine ⟨fun p hp => ?_, fun owner => ?_⟩
  · rcases List.mem_append.1 (s2.mem_iff.1 (s3.mem_iff.1 (s5.mem_iff.1 (s7.mem_iff.1 hp)))) with hp | hp
    · exact .inl (s1.mem_iff.1 hp)
    · obtain ⟨x, hx, hp⟩ := List.mem_flatMap.1 hp
      obtain ⟨i, -, rfl⟩ := List.mem_map.1 hp
      have : (idIn (cell d2 x l.taker), ((listIn (cell d2 x items)).length : Rat)) ∈
          t.rows.map fun r => (idIn (cell t r l.taker), numIn (cell t r l.qty)) := by
        rw [e7]
        exact List.mem_map.2 ⟨x, hx, rfl⟩
      obtain ⟨r, hr, e⟩ := List.mem_map.1 this
      exact .inr ⟨r, hr, (Prod.mk.inj e).1⟩
  have hrec : l.received owner [(l.deliveryLog, t)] =
      (d2.rows.flatMap fun x => (listIn (cell d2 x items)).map fun i =>
        (idIn (cell d2 x l.taker), i)).countP (fun p => decide (p.1 = owner)) := by
    have a1 : l.received owner [(l.deliveryLog, t)] =
        ((t.rows.map fun r => (idIn (cell t r l.taker), numIn (cell t r l.qty))).map fun p =>
          if p.1 = owner then p.2 else 0).sum := by
      simp only [Ledger.received, receivedBy, tablesOf, List.filter_cons, decide_true, if_true,
        List.filter_nil, List.map_cons, List.map_nil, List.sum_cons, List.sum_nil, add_zero, List.map_map]
      generalize t.rows = rows
      induction rows with
      | nil => rfl
      | cons r rows ih =>
        rw [List.filter_cons, List.map_cons, List.sum_cons, ← ih]
        by_cases ho : idIn (cell t r l.taker) = owner <;> simp [ho]
    rw [a1, e7]
    clear * -
    generalize d2.rows = rows
    induction rows with
    | nil => rfl
    | cons r rows ih =>
      rw [List.map_cons, List.map_cons, List.sum_cons, ih, List.flatMap_cons, List.countP_append,
        List.countP_map, Nat.cast_add]
      congr 1
      by_cases ho : idIn (cell d2 r l.taker) = owner
      · simp [ho, Function.comp_def, List.countP_true]
      · simp [ho, Function.comp_def, List.countP_false]
  rw [hrec, held_eq s7, held_eq s5, held_eq s3, held, held, s2.countP_eq, List.countP_append,
    s1.countP_eq]
  push_cast
  rfl

theorem keeps_builtIn {idField : String} {ops : List (Op (World σ γ))}
    (h : l.Sells env idField ops ∨ l.Delivers env idField ops ∨ l.Bystanding env ops) :
    ∀ op ∈ ops, BuiltIn env (fun _ => True) (fun _ => True) op := by
  intro op hop
  rcases h with ⟨pre, mid, post, cols, d, wt, rfl, -, -, -, h1, h2, h3⟩ |
    ⟨pre, mid, mid', post, cols, items, f, rfl, -, -, -, -, h1, h2, h3, h4⟩ | hb
  · simp only [List.mem_append, List.mem_cons] at hop
    rcases hop with hop | rfl | hop | rfl | hop
    · exact aside_builtIn (h1 op hop)
    · exact .selectOne _ _ _ _ _ _ _
    · exact aside_builtIn (h2 op hop).1
    · exact .fieldLogger _ _ _
    · exact aside_builtIn (h3 op hop)
  · simp only [List.mem_append, List.mem_cons] at hop
    rcases hop with hop | rfl | hop | rfl | hop | rfl | hop
    · exact aside_builtIn (h1 op hop)
    · exact .effect (.relAddGrouped _ _ _)
    · exact aside_builtIn (h2 op hop).1
    · exact .adder (.applySeries _ _)
    · exact aside_builtIn (h3 op hop).1
    · exact .fieldLogger _ _ _
    · exact aside_builtIn (h4 op hop)
  · exact aside_builtIn (hb op hop)

theorem Spec.Ledger.Keeps.same {chains : List (List (Op (World σ γ)))} {w w' : World σ γ}
    (h : SameStories w w') (hw : l.Keeps env chains w) : l.Keeps env chains w' := by
  intro j ops s' hj hs'
  have hlen := List.Forall₂.length_eq h
  have hj' : j < w'.stories.length := (List.getElem?_eq_some_iff.1 hs').1
  have e := (List.forall₂_iff_get.1 h).2 j (by omega) hj'
  rw [List.get_eq_getElem, List.get_eq_getElem, (List.getElem?_eq_some_iff.1 hs').2] at e
  have hf : s'.idField = (w.stories[j]'(by omega)).idField := by rw [e.1]
  rw [hf]
  exact hw j ops _ hj (List.getElem?_eq_getElem (by omega))

/-- **C104** one execution of a story of the circus. -/
theorem C104_execution {chains : List (List (Op (World σ γ)))} {w w' : World σ γ} {i : Nat}
    {ops : List (Op (World σ γ))} {logs : Logs} (hw : l.Keeps env chains w)
    (hids : ∀ s ∈ w.stories, s.ids.Nodup) (hok : StocksOk env [l.stock] w)
    (hi : chains[i]? = some ops) (h : World.execute env ops i w = .ok logs w') (o : Orders) :
    l.Keeps env chains w' ∧ (∀ s ∈ w'.stories, s.ids.Nodup) ∧ StocksOk env [l.stock] w' ∧
      (∀ p ∈ stockAt o w' l.stock, p ∈ stockAt o w l.stock ∨
        ∃ t ∈ tablesOf l.deliveryLog logs, ∃ r ∈ t.rows, idIn (cell t r l.taker) = p.1) ∧ ∀ owner,
      (held o w' l.stock owner : Rat) + l.sold owner logs ≤
        held o w l.stock owner + l.received owner logs ∧
      (NoEmptyItem o w l.stock owner → (held o w' l.stock owner : Rat) + l.sold owner logs =
        held o w l.stock owner + l.received owner logs) := by
  obtain ⟨s, -, hs, -⟩ := execute_gen_at (i := 0) h
  have hk := hw i ops s hi hs
  have hsame := execute_sameStories (keeps_builtIn hk) h
  refine ⟨hw.same hsame, hsame.nodup hids, ?_⟩
  have hrels : ∀ {u v : World σ γ}, v.rels = u.rels → (StocksOk env [l.stock] v ↔ StocksOk env [l.stock] u) ∧
      stockAt o v l.stock = stockAt o u l.stock := by
    intro u v e
    obtain ⟨e1, e2⟩ := RelsKept.of_rels (env := env) e [l.stock] o
    exact ⟨e1, e2 _⟩
  rcases execute_runs hs h with ⟨e, rfl⟩ | ⟨w1, out, ls, e, hr, hl⟩
  · refine ⟨(hrels e).1.2 hok, fun p hp => .inl ((hrels e).2 ▸ hp), fun owner => ?_⟩
    have : held o w' l.stock owner = held o w l.stock owner := by rw [held, held, (hrels e).2]
    rw [this]
    simp [Ledger.sold, Ledger.received, soldBy, receivedBy, tablesOf]
  · have hs0 : stockAt o (started w i s) l.stock = stockAt o w l.stock := (hrels rfl).2
    have hh0 : ∀ owner, held o (started w i s) l.stock owner = held o w l.stock owner := fun owner => by
      rw [held, held, hs0]
    have hh1 : ∀ owner, held o w' l.stock owner = held o w1 l.stock owner := fun owner => by
      rw [held, held, (hrels e).2]
    have hne : ∀ owner, NoEmptyItem o (started w i s) l.stock owner ↔
        NoEmptyItem o w l.stock owner := fun owner => by
      rw [NoEmptyItem, NoEmptyItem, hs0]
    have hok0 : StocksOk env [l.stock] (started w i s) := (hrels rfl).1.2 hok
    obtain ⟨hrect, hnd, -⟩ := actingRows_namesOwn (hids s (List.mem_of_getElem? hs))
    have htab : ∀ id t, ls.filterMap (·.get? id) = [t] → tablesOf id logs = tablesOf id [(id, t)] := by
      intro id t ht
      rw [hl, ht]
      simp [foldVals, tablesOf]
    have hnil : ∀ id, ls.filterMap (·.get? id) = [] → tablesOf id logs = [] := by
      intro id ht
      rw [hl, ht]
      rfl
    rw [(hrels e).2]
    rcases hk with hk | hk | hk
    · obtain ⟨k1, k2, k0, t, k3, k4⟩ := C104_sale hk rfl hrect hnd hok0 o hr
      refine ⟨(hrels e).1.2 k1, fun p hp => .inl (hs0 ▸ k0 p hp), fun owner => ?_⟩
      have hrec : l.received owner logs = 0 := receivedBy_nil (hnil _ k2)
      have hsold : l.sold owner logs = l.sold owner [(l.saleLog, t)] := by
        rw [Ledger.sold, Ledger.sold, soldBy, soldBy, htab _ _ k3]
      obtain ⟨k5, k6⟩ := k4 owner
      rw [hh0, ← hh1, ← hsold] at k5 k6
      rw [hrec, add_zero]
      exact ⟨by exact_mod_cast k5, fun hn => by exact_mod_cast k6 ((hne owner).2 hn)⟩
    · obtain ⟨k1, k2, t, k3, k0, k4⟩ := C104_delivery hk rfl hrect hnd hok0 o hr
      refine ⟨(hrels e).1.2 k1, fun p hp => ?_, fun owner => ?_⟩
      · rcases k0 p hp with hp | hp
        · exact .inl (hs0 ▸ hp)
        · exact .inr ⟨t, by rw [htab _ _ k3]; simp [tablesOf], hp⟩
      have hsold : l.sold owner logs = 0 := soldBy_nil (hnil _ k2)
      have hrec : l.received owner logs = l.received owner [(l.deliveryLog, t)] := by
        rw [Ledger.received, Ledger.received, receivedBy, receivedBy, htab _ _ k3]
      have k5 := k4 owner
      rw [hh0, ← hh1, ← hrec] at k5
      rw [hsold, k5]
      simp
    · obtain ⟨k1, k2, k3, k4⟩ := aside_runs hk hok0 o hr
      refine ⟨(hrels e).1.2 k1, fun p hp => .inl (hs0 ▸ k2.mem_iff.1 hp), fun owner => ?_⟩
      have e1 : l.sold owner logs = 0 := soldBy_nil (hnil _ k3)
      have e2 : l.received owner logs = 0 := receivedBy_nil (hnil _ k4)
      rw [e1, e2, hh1, held_eq k2, hh0]
      simp

theorem sold_append (owner : Val) (a b : Logs) : l.sold owner (a ++ b) = l.sold owner a + l.sold owner b := by
  simp [Ledger.sold, soldBy, tablesOf]

theorem received_append (owner : Val) (a b : Logs) :
    l.received owner (a ++ b) = l.received owner a + l.received owner b := by
  simp [Ledger.received, receivedBy, tablesOf]

/-- **C104** over any run, no owner sells more than it held at the start and received since, minus what it
still holds. -/
theorem C104_never_oversold {chains : List (List (Op (World σ γ)))} {w w' : World σ γ}
    {evs : List (Int × Event)} (hw : l.Keeps env chains w) (hids : ∀ s ∈ w.stories, s.ids.Nodup)
    (hok : StocksOk env [l.stock] w) (h : Played env chains w evs w') (o : Orders) (owner : Val) :
    (held o w' l.stock owner : Rat) + l.sold owner (emitted evs) ≤
      held o w l.stock owner + l.received owner (emitted evs) := by
  induction h with
  | nil w => simp [emitted, Ledger.sold, Ledger.received, soldBy, receivedBy, tablesOf]
  | @exec w w1 w' evs i ops logs hi h rest ih =>
    obtain ⟨k1, k2, k3, k0, k4⟩ := C104_execution hw hids hok hi h o
    have a1 := ih k1 k2 k3
    have a2 := (k4 owner).1
    have e : emitted ((w.clock.current, Event.exec i logs) :: evs) = logs ++ emitted evs := rfl
    rw [e, sold_append, received_append]
    push_cast
    linarith
  | @tick w w' evs rest ih => exact ih hw hids hok

/-- **C104** over any run in which an owner never holds an empty item, the logs are an exact account of its
stock. -/
theorem C104_exact_account {chains : List (List (Op (World σ γ)))} {w w' : World σ γ}
    {evs : List (Int × Event)} (hw : l.Keeps env chains w) (hids : ∀ s ∈ w.stories, s.ids.Nodup)
    (hok : StocksOk env [l.stock] w) (h : Played env chains w evs w') (o : Orders) (owner : Val)
    (hne : ∀ before after w1, evs = before ++ after → Played env chains w before w1 →
      NoEmptyItem o w1 l.stock owner) :
    (held o w' l.stock owner : Rat) + l.sold owner (emitted evs) =
      held o w l.stock owner + l.received owner (emitted evs) := by
  induction h with
  | nil w => simp [emitted, Ledger.sold, Ledger.received, soldBy, receivedBy, tablesOf]
  | @exec w w1 w' evs i ops logs hi h rest ih =>
    obtain ⟨k1, k2, k3, k0, k4⟩ := C104_execution hw hids hok hi h o
    have a1 := ih k1 k2 k3 fun before after w2 he hp =>
      hne (_ :: before) after w2 (by rw [he]; rfl) (.exec hi h hp)
    have a2 := (k4 owner).2 (hne [] _ w rfl (.nil w))
    have e : emitted ((w.clock.current, Event.exec i logs) :: evs) = logs ++ emitted evs := rfl
    rw [e, sold_append, received_append]
    push_cast
    linarith
  | @tick w w' evs rest ih =>
    exact ih hw hids hok fun before after w2 he hp =>
      hne (_ :: before) after w2 (by rw [he]; rfl) (.tick hp)

/-! ### Owners to whom nobody delivers -/

theorem actingRows_ids {s : Story σ} {v : Val} (h : v ∈ Frame.index ⟨[s.idField], actingRows s⟩) :
    v ∈ s.ids := by
  have h : v ∈ (actingRows s).map (·.idx) := h
  obtain ⟨r, hr, rfl⟩ := List.mem_map.1 h
  obtain ⟨m, hm, e⟩ := List.mem_filterMap.1 hr
  split at e
  · cases e
    exact List.mem_map.2 ⟨m, hm, rfl⟩
  · cases e

/-- the takers that the log of a delivery names are acting members -/
theorem delivery_takers {idField : String} {ops : List (Op (World σ γ))}
    (hops : l.Delivers env idField ops) (hid : idField = l.taker)
    (hown : ∀ op ∈ ops, OpWithin env (fun _ => True) (fun _ => True) (Clear idField) (fun _ => True)
      (fun _ => True) op) {data out : Frame} {ls : List Logs} {w w' : World σ γ}
    (hd : NamesOwn idField data) (h : Runs ops data w out ls w') :
    ∀ t ∈ ls.filterMap (·.get? l.deliveryLog), ∀ r ∈ t.rows, idIn (cell t r l.taker) ∈ data.index := by
  obtain ⟨pre, mid, mid', post, cols, items, f, rfl, hc, hf, -, hclear, hpre, hmid, hmid', hpost⟩ := hops
  rw [show pre ++ Ops.relAddGrouped env l.stock l.taker items ::
      (mid ++ Ops.applySeries [items] l.qty f ::
        (mid' ++ Ops.fieldLogger l.deliveryLog cols [] :: post)) =
      (pre ++ Ops.relAddGrouped env l.stock l.taker items ::
        (mid ++ Ops.applySeries [items] l.qty f :: mid')) ++
      Ops.fieldLogger l.deliveryLog cols [] :: post by simp] at h
  obtain ⟨d1, w1, l1, lb, r1, r2, rfl⟩ := runs_split h
  cases r2 with
  | @cons _ _ _ d2 _ _ w2 _ lf l3 hl r3 =>
  have hbuilt : ∀ op ∈ pre ++ Ops.relAddGrouped env l.stock l.taker items ::
      (mid ++ Ops.applySeries [items] l.qty f :: mid'), BuiltIn env (fun _ => True) (fun _ => True) op := by
    intro op hop
    refine (hown op ?_).builtIn
    simp only [List.mem_append, List.mem_cons] at hop ⊢
    tauto
  have hd1 : NamesOwn idField d1 := by
    refine within_namesOwn (env := env) (F := fun _ => True) (Z := fun _ => True) (D := fun _ => True)
      (L := fun _ => True) (fun op hop => hown op ?_) r1 hd
    simp only [List.mem_append, List.mem_cons] at hop ⊢
    tauto
  obtain ⟨-, hsub⟩ := C44_at_each_point hbuilt hd.2.1 r1
  have hq : ∀ op ∈ pre ++ Ops.relAddGrouped env l.stock l.taker items ::
      (mid ++ Ops.applySeries [items] l.qty f :: mid'),
      OpWithin env (fun _ => True) (fun _ => True) (fun _ => True) (fun _ => True) l.Other op := by
    intro op hop
    simp only [List.mem_append, List.mem_cons] at hop
    have hm : ∀ {A : String → Prop} {op : Op (World σ γ)},
        OpWithin env (fun _ => True) (fun _ => True) A (fun _ => True) l.Other op →
        OpWithin env (fun _ => True) (fun _ => True) (fun _ => True) (fun _ => True) l.Other op :=
      fun h => h.mono (fun _ _ => trivial) (fun _ h => h) (fun _ h => h)
    rcases hop with hop | rfl | hop | rfl | hop
    · exact hm (hpre op hop).2
    · exact .effect (.relAddGrouped _ _ _)
    · exact hm (hmid op hop).1.2
    · exact .applySeries _ _ _ trivial
    · exact hm (hmid' op hop).1.2
  have q1 := runs_quiet hq (id := l.deliveryLog) (fun h => h.2 rfl) r1
  have q2 := runs_quiet (fun op hop => (hpost op hop).2) (id := l.deliveryLog) (fun h => h.2 rfl) r3
  obtain ⟨rfl, rfl, t, rfl, e4⟩ := logged_fields hc hl
  rw [List.filterMap_append, List.filterMap_cons, q1, q2]
  simp only [Dict.get?, if_true, List.nil_append, List.mem_singleton]
  intro t' ht' r hr
  obtain rfl : t = t' := ht'.symm
  have : (cell t r l.taker, cell t r l.qty) ∈ d2.rows.map fun r => (cell d2 r l.taker, cell d2 r l.qty) := by
    rw [← e4]
    exact List.mem_map.2 ⟨r, hr, rfl⟩
  obtain ⟨r2, hr2, e⟩ := List.mem_map.1 this
  rw [← (Prod.mk.inj e).1, ← hid, hd1.2.2 r2 hr2]
  exact hsub _ (List.mem_map.2 ⟨r2, hr2, rfl⟩)

theorem Spec.Ledger.Stranger.same {chains : List (List (Op (World σ γ)))} {w w' : World σ γ} {owner : Val}
    (h : SameStories w w') (hw : l.Stranger env chains w owner) : l.Stranger env chains w' owner := by
  intro j ops s' hj hs'
  have hlen := List.Forall₂.length_eq h
  have hj' : j < w'.stories.length := (List.getElem?_eq_some_iff.1 hs').1
  have e := (List.forall₂_iff_get.1 h).2 j (by omega) hj'
  rw [List.get_eq_getElem, List.get_eq_getElem, (List.getElem?_eq_some_iff.1 hs').2] at e
  have hf : s'.idField = (w.stories[j]'(by omega)).idField := by rw [e.1]
  have hi : s'.ids = (w.stories[j]'(by omega)).ids := e.2
  rw [hf, hi]
  exact hw j ops _ hj (List.getElem?_eq_getElem (by omega))

theorem Spec.Ledger.Stranger.keeps {chains : List (List (Op (World σ γ)))} {w : World σ γ} {owner : Val}
    (hw : l.Stranger env chains w owner) : l.Keeps env chains w := by
  intro j ops s hj hs
  rcases hw j ops s hj hs with h | h | h
  · exact .inl h
  · exact .inr (.inr h)
  · exact .inr (.inl h.1)

/-- **C104** an owner to whom nobody delivers, and whose items are not empty, sells over any run exactly
what its stock loses: at most what it held. -/
theorem C104_stranger {chains : List (List (Op (World σ γ)))} {w w' : World σ γ}
    {evs : List (Int × Event)} {owner : Val} (hst : l.Stranger env chains w owner) (hids : ∀ s ∈ w.stories, s.ids.Nodup)
    (hok : StocksOk env [l.stock] w) (h : Played env chains w evs w') (o : Orders)
    (hne : NoEmptyItem o w l.stock owner) :
    held o w' l.stock owner + l.sold owner (emitted evs) = held o w l.stock owner := by
  induction h with
  | nil w => simp [emitted, Ledger.sold, soldBy, tablesOf]
  | @exec w w1 w' evs i ops logs hi h rest ih =>
    obtain ⟨s, -, hs, -⟩ := execute_gen_at (i := 0) h
    have hk := hst i ops s hi hs
    have hsame := execute_sameStories (keeps_builtIn (hst.keeps i ops s hi hs)) h
    obtain ⟨-, k2, k3, k0, k4⟩ := C104_execution hst.keeps hids hok hi h o
    have htakers : ∀ t ∈ tablesOf l.deliveryLog logs, ∀ r ∈ t.rows, idIn (cell t r l.taker) ≠ owner := by
      rcases execute_runs hs h with ⟨-, rfl⟩ | ⟨w2, out, ls, -, hr, hl⟩
      · simp [tablesOf]
      · have hnd := actingRows_namesOwn (hids s (List.mem_of_getElem? hs))
        have hok0 : StocksOk env [l.stock] (started w i s) :=
          (RelsKept.of_rels (env := env) (w := w) rfl [l.stock] o).1.2 hok
        rw [hl]
        rcases hk with hk | hk | ⟨hk, hid, hout, hown⟩
        · obtain ⟨-, k5, -⟩ := C104_sale hk rfl hnd.1 hnd.2.1 hok0 o hr
          rw [k5]; simp [foldVals]
        · obtain ⟨-, -, -, k5⟩ := aside_runs hk hok0 o hr
          rw [k5]; simp [foldVals]
        · obtain ⟨-, -, t, k5, -⟩ := C104_delivery hk rfl hnd.1 hnd.2.1 hok0 o hr
          have hall := delivery_takers hk hid hown hnd hr
          rw [k5] at hall ⊢
          intro t' ht' r hrt he
          have := hall t' (by simpa [foldVals, eq_comm] using ht') r hrt
          rw [he] at this
          exact hout (actingRows_ids this)
    have hrec : l.received owner logs = 0 ∧ NoEmptyItem o w1 l.stock owner := by
      constructor
      · rw [Ledger.received, receivedBy]
        refine List.sum_eq_zero fun x hx => ?_
        obtain ⟨t, ht, rfl⟩ := List.mem_map.1 hx
        rw [List.filter_eq_nil_iff.2 fun r hr => by simpa using htakers t ht r hr]
        rfl
      · intro p hp hpo
        rcases k0 p hp with hp | ⟨t, ht, r, hr, he⟩
        · exact hne p hp hpo
        · exact absurd (he.trans hpo) (htakers t ht r hr)
    have a1 := ih (hst.same hsame) k2 k3 hrec.2
    have a2 := (k4 owner).2 hne
    rw [hrec.1, add_zero] at a2
    have a2 : held o w1 l.stock owner + l.sold owner logs = held o w l.stock owner := by exact_mod_cast a2
    have e : emitted ((w.clock.current, Event.exec i logs) :: evs) = logs ++ emitted evs := rfl
    rw [e, sold_append]
    omega
  | @tick w w' evs rest ih => exact ih hst hids hok hne

/-! ### Without `one_to_one` -/

/-- two members buy at the same time from the dealer "x", who has one item -/
def exMarket : World Nat (AnyGen Nat) := { exDealers with stories := exStampStories }

/-- sales from the dealer "x", logged -/
def exSelling (oneToOne : Bool) : List (Op (World Nat (AnyGen Nat))) :=
  [Ops.randomValues exEnv (.constant (.str "x")) "DEALER" none,
    Ops.selectOne exEnv 0 "DEALER" "ITEM" oneToOne true false none,
    Ops.fieldLogger "sales" ["CALLER", "DEALER", "ITEM"] []]

/-- what the dealer "x" holds before and after, and the number of its sales in the log -/
def exAccount (oneToOne : Bool) : Option (Nat × Nat × Nat) :=
  match World.execute exEnv (exSelling oneToOne) 0 exMarket with
  | .ok logs w => some (held Orders.a exMarket 0 (.str "x"), held Orders.a w 0 (.str "x"),
      soldBy "sales" "DEALER" "ITEM" (.str "x") logs)
  | .error _ _ => none

/-- **C104** `one_to_one` matters: without it, the log tells two sales of the one item of "x". -/
theorem C104_oversold_without_one_to_one : exAccount false = some (1, 0, 2) := by decide +kernel

/-! ### Non-vacuity -/

example : exAccount true = some (1, 0, 1) := by decide +kernel

def exLedger : Ledger := ⟨0, "sales", "DEALER", "ITEM", "bulk", "CALLER", "QTY", by decide⟩

example : exLedger.Stranger exEnv [exSelling true, []] exMarket (.str "x") ∧ StocksOk exEnv [0] exMarket ∧
    (∀ s ∈ exMarket.stories, s.ids.Nodup) ∧ NoEmptyItem Orders.a exMarket 0 (.str "x") := by
  refine ⟨?_, ?_, ?_, ?_⟩
  · intro j ops s hj hs
    match j with
    | 0 =>
      cases hj
      cases hs
      refine .inl ⟨[_], [], [], _, false, none, rfl, .inr ⟨by decide, by decide⟩, by decide,
        ⟨by decide, by decide, by decide⟩, ?_, by simp, by simp⟩
      intro op hop
      rw [List.mem_singleton] at hop
      subst hop
      exact ⟨.adder (.randomValues _ _),
        .randomValues _ _ _ ⟨by decide, by decide, by decide⟩ fun _ _ => trivial⟩
    | 1 => cases hj; exact .inr (.inl (by simp [Ledger.Bystanding]))
    | n + 2 => cases hj
  · intro i hi
    exact exDealers_ok i (by simp only [List.mem_singleton] at hi; simp [hi])
  · decide +kernel
  · unfold NoEmptyItem; decide +kernel

end Trumania
