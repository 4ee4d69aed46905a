import Verif.Spec.Hello
import Verif.Props.SelectWeights
import Verif.Props.Reports

/-! Helper lemmas: what one execution of the story of examples/tutorial/example1.py does. -/

namespace Trumania
namespace Hello
open Spec World Cdr
open Shop (tabs)
variable {σ : Type} {env : Env σ (AnyGen σ)} {w w' w0 w1 : World σ (AnyGen σ)} {data out f f' : Frame} {ls : List Logs}
  {l : Logs} {sc : Scene} {S : List Nat} {all ids ids' : List Val} {cs new : List String} {i : Val} {d len : Int}
  {g g' : String → Cell}

/-- the same populations, clock, and relations -/
structure Still (env : Env σ (AnyGen σ)) (S : List Nat) (w w' : World σ (AnyGen σ)) : Prop where
  pops : w'.pops = w.pops
  ok : StocksOk env S w → StocksOk env S w'
  same : StocksOk env S w → ∀ o, ∀ k ∈ S, (stockAt o w' k).Perm (stockAt o w k)
  date : w'.clock.current = w.clock.current
  step : w'.clock.step = w.clock.step

theorem Still.refl : Still env S w w := ⟨rfl, id, fun _ _ _ _ => .refl _, rfl, rfl⟩

theorem Still.trans (h1 : Still env S w w1) (h2 : Still env S w1 w') : Still env S w w' :=
  ⟨h2.pops.trans h1.pops, fun h => h2.ok (h1.ok h), fun h o k hk => (h2.same (h1.ok h) o k hk).trans (h1.same h o k hk),
    h2.date.trans h1.date, h2.step.trans h1.step⟩

theorem Still.of_eq (h1 : w'.pops = w.pops) (h2 : w'.rels = w.rels) (h3 : w'.clock.current = w.clock.current)
    (h4 : w'.clock.step = w.clock.step) : Still env S w w' :=
  ⟨h1, fun h i hi => by rw [h2]; exact h i hi, fun _ o k _ => by rw [stockAt, stockAt, h2], h3, h4⟩

theorem pos_held {o : Orders} {k : Nat} {i : Val} : 0 < held o w k i ↔ ∃ t, (i, t) ∈ stockAt o w k := by
  rw [held, List.countP_pos_iff]
  constructor
  · rintro ⟨⟨a, t⟩, h1, h2⟩
    have h2 : a = i := by simpa using h2
    exact ⟨t, h2 ▸ h1⟩
  · rintro ⟨t, h⟩
    exact ⟨_, h, by simp⟩

theorem has_stock {o : Orders} {k : Nat} {r : Relationship σ} (hk : w.rels[k]? = some r) {i : Val} :
    Has (r.get_relations o) i ↔ 0 < held o w k i := by
  rw [pos_held, stockAt_of hk]
  constructor
  · rintro ⟨t, wt, h⟩
    exact ⟨t, List.mem_map.2 ⟨_, h, rfl⟩⟩
  · rintro ⟨t, h⟩
    obtain ⟨x, hx, e⟩ := List.mem_map.1 h
    exact ⟨x.2.1, x.2.2, by rw [← (Prod.mk.inj e).1]; exact hx⟩

/-- `select_one` that pops nothing and may give the same to several -/
theorem select_kept {k : Nat} {of name : String} {discard : Bool} {weight : Option (Dict Val Rat)} (hr : Rect data)
    (hn : data.index.Nodup) (hname : name ∉ data.cols) (hok : StocksOk env S w) (hk : k ∈ S)
    (h : Ops.selectOne env k of name false false discard weight data w = .ok (out, l) w') :
    l = [] ∧ Grows [name] data out ∧ Still env S w w' ∧
    (∀ o, out.index = data.index.filter fun i => !discard || decide (0 < held o w k (idIn (valueAt data i of)))) ∧
    ∀ i ∈ out.index, ∃ t, valueAt out i name = .scalar t ∧ ∀ o, 0 < held o w k (idIn (valueAt data i of)) →
      (idIn (valueAt data i of), t) ∈ stockAt o w k ∧
      ∀ ws, weight = some ws → t ≠ .na → 2 ≤ held o w k (idIn (valueAt data i of)) → ws.get? t ≠ some 0 := by
  obtain ⟨r, hr0, hreach⟩ := hok k hk
  obtain ⟨rfl, gr, hp, hv, -⟩ := grows_selectOne hr hn hname hr0 hreach env.orders h
  have hlt := (List.getElem?_eq_some_iff.1 hr0).1
  obtain ⟨-, -, r', chosen, e, hreach', -⟩ := C92_select_one hn hr0 hreach env.orders h
  refine ⟨rfl, gr, ⟨hp, fun hok j hj => ?_, fun hok o j hj => ?_, by rw [e], by rw [e]⟩, fun o => ?_, fun i hi => ?_⟩
  · by_cases hjk : k = j
    · subst hjk
      exact ⟨r', by rw [e]; exact List.getElem?_set_self hlt, hreach'⟩
    · rw [e]
      simp only [List.getElem?_set_ne hjk]
      exact hok j hj
  · obtain ⟨-, -, r2, -, e2, -, -, -, -, -, -, h4, -⟩ := C92_select_one hn hr0 hreach o h
    by_cases hjk : k = j
    · subst hjk
      rw [stockAt_of hr0, stockAt_of (r := r2) (by rw [e2]; exact List.getElem?_set_self hlt)]
      exact (h4 rfl).map _
    · rw [stockAt, stockAt, e2]
      simp only [List.getElem?_set_ne hjk]
      exact .refl _
  · obtain ⟨-, -, r2, chosen, -, -, hrows, h1, h2, h3, -⟩ := C92_select_one hn hr0 hreach o h
    have hidx : ∀ x ∈ data.rows, (chosen x).isSome =
        (!discard || decide (0 < held o w k (idIn (valueAt data x.idx of)))) := by
      intro x hx
      rw [valueAt_row hn hx]
      cases hc : chosen x with
      | none =>
        rcases h3 x hx hc with ⟨h5, h6⟩ | ⟨h5, -⟩
        · rw [has_stock hr0] at h6
          simp [h5, h6]
        · cases h5
      | some t =>
        cases t with
        | none => simp [(h2 x hx hc).1]
        | some t =>
          obtain ⟨wt, hm⟩ := h1 x hx t hc
          have : 0 < held o w k (idIn (cell data x of)) := (has_stock hr0).1 ⟨t, wt, hm⟩
          simp [this]
    have hgen : ∀ rows : List Row, (∀ x ∈ rows, (chosen x).isSome =
        (!discard || decide (0 < held o w k (idIn (valueAt data x.idx of))))) →
        (rows.filterMap fun x => (chosen x).map fun t => (⟨x.idx, x.cells ++ [.scalar (t.getD .na)]⟩ : Row)).map (·.idx) =
          (rows.map (·.idx)).filter fun i => !discard || decide (0 < held o w k (idIn (valueAt data i of))) := by
      intro rows
      induction rows with
      | nil => intro _; rfl
      | cons x rows ih =>
        intro hx
        have ih := ih fun y hy => hx y (by simp [hy])
        have hx := hx x (by simp)
        rw [List.filterMap_cons, List.map_cons, List.filter_cons, ← hx, ← ih]
        cases chosen x <;> rfl
    rw [Frame.index, Frame.index, hrows]
    exact hgen data.rows hidx
  · obtain ⟨t, ht, -⟩ := hv i hi
    refine ⟨t, ht, fun o hpos => ?_⟩
    obtain ⟨-, -, -, hv', -⟩ := grows_selectOne hr hn hname hr0 hreach o h
    obtain ⟨t', ht', hc⟩ := hv' i hi
    rw [ht] at ht'
    cases ht'
    refine ⟨?_, fun ws hws hna htwo => ?_⟩
    · rcases hc with ⟨wt, hm⟩ | ⟨-, hno⟩
      · rw [stockAt_of hr0]
        exact List.mem_map.2 ⟨_, hm, rfl⟩
      · exact absurd ((has_stock hr0).2 hpos) hno
    · have htwo' : 2 ≤ (tosOf (r.get_relations o) (idIn (valueAt data i of))).length := by
        rw [held, stockAt_of hr0, List.countP_map, List.countP_eq_length_filter] at htwo
        rw [tosOf, List.length_map]
        exact htwo
      obtain ⟨wt, wt', -, h5, h6⟩ := C92_zero_weight hr hn hname hr0 hreach o h i hi t hna ht htwo'
      subst hws
      intro h0
      have h5 : ws.get? t = some wt' := h5
      rw [h0] at h5
      exact h6 (Option.some.inj h5).symm

/-! ### Fields that are told -/

theorem Told.append (h1 : Told sc all w d len i cs g) (h2 : Told sc all w d len i new g) :
    Told sc all w d len i (cs ++ new) g := by
  constructor <;> intro h <;> rcases List.mem_append.1 h with h | h
  · exact h1.person h
  · exact h2.person h
  · exact h1.name h
  · exact h2.name h
  · exact h1.hello h
  · exact h2.hello h
  · exact h1.site h
  · exact h2.site h
  · exact h1.friend h
  · exact h2.friend h
  · exact h1.friendName h
  · exact h2.friendName h
  · exact h1.friendSite h
  · exact h2.friendSite h
  · exact h1.price h
  · exact h2.price h
  · exact h1.currency h
  · exact h2.currency h
  · exact h1.time h
  · exact h2.time h

/-- the fields that others speak of are there -/
abbrev Closed (cs : List String) : Prop :=
  ("COUNTER_PART_NAME" ∈ cs → "COUNTERPART_ID" ∈ cs) ∧ ("COUNTERPART_SITE" ∈ cs → "COUNTERPART_ID" ∈ cs) ∧
  ("PRICE" ∈ cs → "DURATION" ∈ cs)

theorem Told.congr (h : Told sc all w d len i cs g) (hc : Closed cs) (he : ∀ c ∈ cs, g' c = g c) :
    Told sc all w d len i cs g' := by
  constructor <;> intro hm
  · rw [he _ hm]; exact h.person hm
  · rw [he _ hm]; exact h.name hm
  · rw [he _ hm]; exact h.hello hm
  · rw [he _ hm]; exact h.site hm
  · rw [he _ hm]; exact h.friend hm
  · rw [he _ hm, he _ (hc.1 hm)]; exact h.friendName hm
  · rw [he _ hm, he _ (hc.2.1 hm)]; exact h.friendSite hm
  · rw [he _ hm, he _ (hc.2.2 hm)]; exact h.price hm
  · rw [he _ hm]; exact h.currency hm
  · rw [he _ hm]; exact h.time hm

/-- nothing is told of other fields -/
theorem told_other (h : ∀ c ∈ cs, c = "DURATION") : Told sc all w d len i cs g := by
  constructor <;> intro hm <;> exact absurd (h _ hm) (by decide)

/-- what the operations have added so far to the records of the persons that are left -/
structure Walk (env : Env σ (AnyGen σ)) (sc : Scene) (all : List Val) (w0 : World σ (AnyGen σ)) (cs : List String)
    (ids : List Val) (f : Frame) (w : World σ (AnyGen σ)) : Prop where
  rect : Rect f
  nodup : f.index.Nodup
  cols : f.cols = cs
  index : f.index = ids
  still : Still env sc.step.rels w0 w
  began : ∀ {r : GenRef} {x : AnyGen σ}, Began env w0 r x → Began env w r x
  each : ∀ i ∈ ids, Told sc all w0 w0.clock.current w0.clock.step i cs (valueAt f i)

theorem Walk.grow (h : Walk env sc all w0 cs ids f w) (hc : Closed cs) (hg : Grows new f f') (hi : f'.index = ids')
    (hs : Still env sc.step.rels w w') (hb : ∀ {r : GenRef} {x : AnyGen σ}, Began env w r x → Began env w' r x)
    (hnew : ∀ i ∈ ids', Told sc all w0 w0.clock.current w0.clock.step i new (valueAt f' i)) :
    Walk env sc all w0 (cs ++ new) ids' f' w' := by
  refine ⟨hg.rect, hg.nodup, by rw [hg.cols, h.cols], hi, h.still.trans hs, fun b => hb (h.began b), fun i him => ?_⟩
  have hi' : i ∈ f'.index := hi ▸ him
  refine Told.append ((h.each i (h.index ▸ hg.labels i hi')).congr hc fun c hm => ?_) (hnew i him)
  exact hg.kept i hi' c (h.cols ▸ hm)

theorem walk_name (hw : Ready env sc all ids' w0) (h : Walk env sc all w0 cs ids f w) (hc : Closed cs) (hn : "NAME" ∉ cs)
    (hid : "PERSON_ID" ∈ cs) (ho : lookupName 0 f w = .ok (f', l) w') :
    l = [] ∧ Walk env sc all w0 (cs ++ ["NAME"]) ids f' w' := by
  obtain ⟨rfl, rfl, g1, i1, q, hq, f1⟩ := grows_lookup_of (by rw [h.still.pops]; exact hw.wf) h.rect h.nodup (by decide)
    (by rw [h.cols]; simpa using hn) ho
  refine ⟨rfl, h.grow hc g1 (i1.trans h.index) .refl (fun b => b) fun i hi => ?_⟩
  obtain ⟨a, ha, hl⟩ := f1 i (by rw [i1, h.index]; exact hi) ("NAME", "NAME") (by simp)
  rw [(h.each i hi).person hid] at hl
  constructor <;> intro hm <;> try (simp at hm; done)
  exact ⟨q, a, by rw [← h.still.pops]; exact hq, ha, hl⟩

theorem drawn_kept {r : GenRef} {name : String} (h : Walk env sc all w0 cs ids f w) (hn : name ∉ cs)
    (ho : Ops.randomValues env r name none f w = .ok (f', l) w') :
    l = [] ∧ Grows [name] f f' ∧ f'.index = ids ∧ Still env sc.step.rels w w' ∧
      (∀ {r : GenRef} {x : AnyGen σ}, Began env w r x → Began env w' r x) ∧
      ∃ values n, World.generate env r n w = .ok values w' ∧ ids.map (fun i => valueAt f' i name) = values := by
  obtain ⟨-, g2, i2⟩ := grows_adder (env := env) (.randomValues _ _) h.rect h.nodup (by rw [h.cols]; exact hn) ho
  obtain ⟨rfl, values, ad, e⟩ := C91_random_values h.nodup h.rect (by rw [h.cols]; exact hn) ho
  have hrest := (call_sameRest e).2
  refine ⟨rfl, g2, i2.trans h.index, .of_eq hrest.pops hrest.rels hrest.date hrest.step,
    fun b => began_op (F := fun _ => True) (Z := fun _ => True) (.adder (.randomValues _ _)) ho b, values, _, e, ?_⟩
  rw [← h.index, ← i2]
  exact Shop.listIn_added h.nodup ad

theorem walk_hello (h : Walk env sc all w0 cs ids f w) (hc : Closed cs) (hn : "HELLO" ∉ cs)
    (ho : hello env f w = .ok (f', l) w') : l = [] ∧ Walk env sc all w0 (cs ++ ["HELLO"]) ids f' w' := by
  obtain ⟨rfl, g1, i1, s1, b1, values, n, e, hv⟩ := drawn_kept h hn ho
  refine ⟨rfl, h.grow hc g1 i1 s1 b1 fun i hi => ?_⟩
  constructor <;> intro hm <;> try (simp at hm; done)
  rw [World.generate, World.call] at e
  obtain ⟨e, -⟩ := Act.pure_eq_ok.1 e
  have : valueAt f' i "HELLO" ∈ values := by rw [← hv]; exact List.mem_map_of_mem hi
  rw [← e] at this
  exact List.eq_of_mem_replicate this

theorem walk_duration {r : GenRef} (h : Walk env sc all w0 cs ids f w) (hc : Closed cs) (hn : "DURATION" ∉ cs)
    (ho : durations env r f w = .ok (f', l) w') : l = [] ∧ Walk env sc all w0 (cs ++ ["DURATION"]) ids f' w' := by
  obtain ⟨rfl, g1, i1, s1, b1, -⟩ := drawn_kept h hn ho
  exact ⟨rfl, h.grow hc g1 i1 s1 b1 fun i hi => told_other (by simp)⟩

theorem walk_randomSite (hsem : env.sem = AnyGen.sem env.R) (hw : Ready env sc all ids' w0) (h3 : sc.step = .three)
    (h : Walk env sc all w0 cs ids f w) (hc : Closed cs) (hn : "SITE" ∉ cs)
    (ho : randomSite env sc.site f w = .ok (f', l) w') : l = [] ∧ Walk env sc all w0 (cs ++ ["SITE"]) ids f' w' := by
  obtain ⟨rfl, g1, i1, s1, b1, values, n, e, hv⟩ := drawn_kept h hn ho
  refine ⟨rfl, h.grow hc g1 i1 s1 b1 fun i hi => ?_⟩
  obtain ⟨x, hb⟩ := hw.site h3
  obtain ⟨t, ht, ht'⟩ := Shop.began_choice hsem (h.began hb) e (valueAt f' i "SITE") (by
    rw [← hv]; exact List.mem_map_of_mem hi)
  constructor <;> intro hm <;> try (simp at hm; done)
  exact ⟨t, ht', by rw [if_pos h3]; exact ht⟩

theorem walk_site (hw : Ready env sc all ids' w0) (h0 : 0 ∈ sc.step.rels) (hsub : ∀ i ∈ ids, i ∈ ids')
    (h : Walk env sc all w0 cs ids f w) (hc : Closed cs) (hn : "SITE" ∉ cs) (hid : "PERSON_ID" ∈ cs)
    (ho : selectSite env 0 "PERSON_ID" "SITE" f w = .ok (f', l) w') :
    l = [] ∧ Walk env sc all w0 (cs ++ ["SITE"]) ids f' w' := by
  have hok := h.still.ok hw.stocks
  obtain ⟨rfl, g1, s1, i1, v1⟩ := select_kept h.rect h.nodup (by rw [h.cols]; exact hn) hok h0 ho
  have i1' : f'.index = ids := by rw [i1 env.orders, h.index]; simp
  refine ⟨rfl, h.grow hc g1 i1' s1 (fun b => began_op (F := fun _ => True) (Z := fun _ => True)
    (.selectOne _ _ _ _ _ _ _) ho b) fun i hi => ?_⟩
  obtain ⟨t, ht, hrel⟩ := v1 i (i1' ▸ hi)
  rw [(h.each i hi).person hid] at hrel
  constructor <;> intro hm <;> try (simp at hm; done)
  refine ⟨t, ht, ?_⟩
  rw [if_neg (by intro e; rw [e] at h0; simp [Step.rels] at h0)]
  intro o
  have hp := h.still.same hw.stocks o 0 h0
  obtain ⟨t', ht'⟩ := hw.settled h0 o i (hsub i hi)
  exact hp.mem_iff.1 (hrel o (pos_held.2 ⟨t', hp.mem_iff.2 ht'⟩)).1

theorem walk_friend (hw : Ready env sc all ids' w0) (h1 : 1 ∈ sc.step.rels)
    (h : Walk env sc all w0 cs ids f w) (hc : Closed cs) (hn : "COUNTERPART_ID" ∉ cs) (hid : "PERSON_ID" ∈ cs)
    (ho : selectFriend env 1 sc.weights f w = .ok (f', l) w') :
    l = [] ∧ (∀ o, f'.index = ids.filter fun i => decide (0 < held o w0 1 i)) ∧
      Walk env sc all w0 (cs ++ ["COUNTERPART_ID"]) f'.index f' w' := by
  have hok := h.still.ok hw.stocks
  obtain ⟨rfl, g1, s1, i1, v1⟩ := select_kept h.rect h.nodup (by rw [h.cols]; exact hn) hok h1 ho
  have hheld : ∀ o i, held o w 1 i = held o w0 1 i := fun o i => (h.still.same hw.stocks o 1 h1).countP_eq _
  have i1' : ∀ o, f'.index = ids.filter fun i => decide (0 < held o w0 1 i) := by
    intro o
    rw [i1 o, h.index]
    refine List.filter_congr fun i hi => ?_
    rw [(h.each i hi).person hid, hheld]
    rfl
  refine ⟨rfl, i1', h.grow hc g1 rfl s1 (fun b => began_op (F := fun _ => True) (Z := fun _ => True)
    (.selectOne _ _ _ _ _ _ _) ho b) fun i hi => ?_⟩
  have hi' : i ∈ ids := h.index ▸ g1.labels i hi
  obtain ⟨t, ht, hrel⟩ := v1 i hi
  rw [(h.each i hi').person hid] at hrel
  constructor <;> intro hm <;> try (simp at hm; done)
  refine ⟨t, ht, fun o => ?_⟩
  have hpos : 0 < held o w0 1 i := by
    rw [i1' o] at hi
    simpa using (List.mem_filter.1 hi).2
  obtain ⟨k1, k2⟩ := hrel o (by rw [hheld]; exact hpos)
  have k1' := (h.still.same hw.stocks o 1 h1).mem_iff.1 k1
  refine ⟨k1', fun htwo => k2 _ rfl ?_ (by rw [hheld]; exact htwo)⟩
  rintro rfl
  exact hw.named (hw.friends h1 o _ k1')

theorem walk_friendName (hw : Ready env sc all ids' w0) (h : Walk env sc all w0 cs ids f w) (hc : Closed cs)
    (hn : "COUNTER_PART_NAME" ∉ cs) (hid : "COUNTERPART_ID" ∈ cs) (ho : lookupFriend 0 f w = .ok (f', l) w') :
    l = [] ∧ Walk env sc all w0 (cs ++ ["COUNTER_PART_NAME"]) ids f' w' := by
  obtain ⟨rfl, rfl, g1, i1, q, hq, f1⟩ := grows_lookup_of (by rw [h.still.pops]; exact hw.wf) h.rect h.nodup (by decide)
    (by rw [h.cols]; simpa using hn) ho
  refine ⟨rfl, h.grow hc g1 (i1.trans h.index) .refl (fun b => b) fun i hi => ?_⟩
  have hi' : i ∈ f'.index := by rw [i1, h.index]; exact hi
  obtain ⟨a, ha, hl⟩ := f1 i hi' ("NAME", "COUNTER_PART_NAME") (by simp)
  obtain ⟨t, ht, -⟩ := (h.each i hi).friend hid
  rw [ht] at hl
  constructor <;> intro hm <;> try (simp at hm; done)
  exact ⟨t, by rw [g1.kept i hi' _ (h.cols ▸ hid)]; exact ht, q, a, by rw [← h.still.pops]; exact hq, ha, hl⟩

theorem walk_friendSite (hw : Ready env sc all ids' w0) (h0 : 0 ∈ sc.step.rels) (h1 : 1 ∈ sc.step.rels)
    (h : Walk env sc all w0 cs ids f w) (hc : Closed cs) (hn : "COUNTERPART_SITE" ∉ cs) (hid : "COUNTERPART_ID" ∈ cs)
    (ho : selectSite env 0 "COUNTERPART_ID" "COUNTERPART_SITE" f w = .ok (f', l) w') :
    l = [] ∧ Walk env sc all w0 (cs ++ ["COUNTERPART_SITE"]) ids f' w' := by
  have hok := h.still.ok hw.stocks
  obtain ⟨rfl, g1, s1, i1, v1⟩ := select_kept h.rect h.nodup (by rw [h.cols]; exact hn) hok h0 ho
  have i1' : f'.index = ids := by rw [i1 env.orders, h.index]; simp
  refine ⟨rfl, h.grow hc g1 i1' s1 (fun b => began_op (F := fun _ => True) (Z := fun _ => True)
    (.selectOne _ _ _ _ _ _ _) ho b) fun i hi => ?_⟩
  have hi' : i ∈ f'.index := i1' ▸ hi
  obtain ⟨u, hu, hrel⟩ := v1 i hi'
  obtain ⟨t, ht, hfr⟩ := (h.each i hi).friend hid
  rw [ht] at hrel
  constructor <;> intro hm <;> try (simp at hm; done)
  refine ⟨t, u, by rw [g1.kept i hi' _ (h.cols ▸ hid)]; exact ht, hu, fun o => ?_⟩
  have hp := h.still.same hw.stocks o 0 h0
  obtain ⟨t', ht'⟩ := hw.settled h0 o t (hw.friends h1 o _ (hfr o).1)
  exact hp.mem_iff.1 (hrel o (pos_held.2 ⟨t', hp.mem_iff.2 ht'⟩)).1

theorem walk_time (hlen : 0 ≤ w0.clock.step) (h : Walk env sc all w0 cs ids f w) (hc : Closed cs) (hn : "TIME" ∉ cs)
    (ho : timestamp env sc.fmt f w = .ok (f', l) w') : l = [] ∧ Walk env sc all w0 (cs ++ ["TIME"]) ids f' w' := by
  have hn' : "TIME" ∉ f.cols := by rw [h.cols]; exact hn
  obtain ⟨-, g2, i2⟩ := grows_adder (env := env) (.timestamp _ _) h.rect h.nodup hn' ho
  obtain ⟨rfl, secs, state, -, -, e, hlt, ad⟩ := C91_random_timestamps h.nodup h.rect hn' (by rw [h.still.step]; exact hlen) ho
  refine ⟨rfl, h.grow hc g2 (i2.trans h.index) (.of_eq (by rw [e]) (by rw [e]) (by rw [e]) (by rw [e]))
    (fun b => began_op (F := fun _ => True) (Z := fun _ => True) (.adder (.timestamp _ _)) ho b) fun i hi => ?_⟩
  have hv := Shop.listIn_added h.nodup ad
  have hm' : valueAt f' i "TIME" ∈ secs.map fun (k : Nat) => sc.fmt (w.clock.current + (k : Int) * 1000000000) := by
    rw [← hv]
    exact List.mem_map_of_mem (by rw [i2, h.index]; exact hi)
  obtain ⟨k, hk, e'⟩ := List.mem_map.1 hm'
  constructor <;> intro hm <;> try (simp at hm; done)
  exact ⟨k, by rw [← h.still.step]; exact hlt k hk, by rw [← e', h.still.date]⟩

theorem price_ok {r : Frame} (h : price data = .ok r) : r.cols = ["PRICE", "CURRENCY"] ∧ r.index = data.index ∧ Rect r ∧
    ∀ (k : Nat) x y, data.rows[k]? = some x → r.rows[k]? = some y → ∃ c, y.cells = [c, .str "EUR"] ∧
      priceCell (cell data x "DURATION") = .ok c := by
  rw [price] at h
  obtain ⟨col, h1, h⟩ := bind_eq_ok.1 h
  obtain ⟨prices, h2, h⟩ := bind_eq_ok.1 h
  cases h
  have h3 := Frame.col_eq_map h1
  have h2 := mapM_ok_iff.1 h2
  have hl : prices.length = data.index.length := by rw [← h2.length_eq, h3, List.length_map, Frame.index_length]
  refine ⟨rfl, ?_, ?_, fun k x y hx hy => ?_⟩
  · simp only [Frame.index, List.map_map]
    show (data.index.zip prices).map Prod.fst = data.index
    exact List.map_fst_zip hl.ge
  · intro y hy
    obtain ⟨z, -, rfl⟩ := List.mem_map.1 hy
    rfl
  · rw [List.getElem?_map] at hy
    obtain ⟨z, hz, rfl⟩ := Option.map_eq_some_iff.1 hy
    rw [List.getElem?_zip_eq_some] at hz
    refine ⟨z.2, rfl, ?_⟩
    rw [h3] at h2
    obtain ⟨c, hc, h4⟩ := forall₂_at h2 (i := k) (a := cell data x "DURATION") (by rw [List.getElem?_map, hx]; rfl)
    rw [hz.2] at hc
    cases hc
    exact h4

theorem costs_of {a c : Cell} (h : priceCell a = .ok c) : Costs a c := by
  unfold priceCell at h
  split at h
  · cases h
    refine .inl ⟨_, rfl, ?_⟩
    rw [show (5 : Rat) / 100 = 1 / 20 by norm_num, mul_one_div]
  · cases h
    exact .inr ⟨rfl, rfl⟩
  · cases h

theorem walk_price (h : Walk env sc all w0 cs ids f w) (hc : Closed cs) (hn : "PRICE" ∉ cs) (hn' : "CURRENCY" ∉ cs)
    (hd : "DURATION" ∈ cs) (ho : applyPrice f w = .ok (f', l) w') :
    l = [] ∧ Walk env sc all w0 (cs ++ ["PRICE", "CURRENCY"]) ids f' w' := by
  obtain ⟨rfl, rfl, g1, i1, result, hres, hv⟩ := grows_frame h.rect h.nodup (by
      rw [h.cols]
      intro c hc1 hc2
      simp only [List.mem_cons, List.not_mem_nil, or_false] at hc2
      rcases hc2 with rfl | rfl
      · exact hn hc1
      · exact hn' hc1) (fun d r hr => by
      obtain ⟨e1, e2, e3, -⟩ := price_ok hr
      exact ⟨e2, e3, by rw [e1]; decide, by rw [e1]⟩) ho
  obtain ⟨e1, e2, e3, e4⟩ := price_ok hres
  refine ⟨rfl, h.grow hc g1 (i1.trans h.index) .refl (fun b => b) fun i hi => ?_⟩
  have hi' : i ∈ f'.index := by rw [i1, h.index]; exact hi
  obtain ⟨x, hx, rfl⟩ := mem_index.1 (h.index ▸ hi : i ∈ f.index)
  obtain ⟨k, hk⟩ := List.mem_iff_getElem?.1 hx
  have hlen : result.rows.length = f.rows.length := by
    have := congrArg List.length e2
    simpa [Frame.index] using this
  have hy := List.getElem?_eq_getElem (l := result.rows) (i := k)
    (by rw [hlen]; exact (List.getElem?_eq_some_iff.1 hk).1)
  obtain ⟨c, hcells, hprice⟩ := e4 k _ _ (by rw [List.getElem?_map, hk]; rfl) hy
  have v1 := hv k x _ hk hy "PRICE" (by simp)
  have v2 := hv k x _ hk hy "CURRENCY" (by simp)
  rw [show cell ⟨["PRICE", "CURRENCY"], result.rows⟩ (result.rows[k]'(by
      rw [hlen]; exact (List.getElem?_eq_some_iff.1 hk).1)) "PRICE" = c by simp [cell, hcells]] at v1
  rw [show cell ⟨["PRICE", "CURRENCY"], result.rows⟩ (result.rows[k]'(by
      rw [hlen]; exact (List.getElem?_eq_some_iff.1 hk).1)) "CURRENCY" = .str "EUR" by simp [cell, hcells]] at v2
  have hdur : valueAt f' x.idx "DURATION" = cell f x "DURATION" := by
    rw [g1.kept _ hi' _ (h.cols ▸ hd), valueAt_row h.nodup hx]
  have hp : priceCell (cell f x "DURATION") = .ok c := by simpa [cell] using hprice
  constructor <;> intro hm <;> try (simp at hm; done)
  · rw [v1, hdur]
    exact costs_of hp
  · exact v2

/-! ### One execution -/

/-- what the operations of the story do with the records of the persons `ids` -/
structure Spoke (env : Env σ (AnyGen σ)) (sc : Scene) (all ids : List Val) (w w' : World σ (AnyGen σ)) (ls : List Logs)
    (t : Frame) : Prop where
  logged : tabs ls "hello" = [t]
  other : ∀ id, id ≠ "hello" → tabs ls id = []
  still : Still env sc.step.rels w w'
  cols : t.cols = sc.step.fields
  nodup : t.index.Nodup
  index : ∀ o, t.index = sc.speakers o w ids
  each : ∀ i ∈ t.index, Told sc all w w.clock.current w.clock.step i sc.step.fields (valueAt t i)

theorem Walk.last {own : Nat} (h : Walk env sc all w0 sc.step.fields ids' f w)
    (hr : Runs [logger, Ops.maybeBackToDefault env own] f w out ls w') (hi : ∀ o, ids' = sc.speakers o w0 ids)
    {pre : List Logs} (hpre : ∀ x ∈ pre, x = []) : Spoke env sc all ids w0 w' (pre ++ ls) f := by
  obtain ⟨d1, w2, l1, ls1, h1, hk1, rfl⟩ := Snd.cons_runs hr
  obtain ⟨d2, w3, l2, ls2, h2, hk2, rfl⟩ := Snd.cons_runs hk1
  cases hk2
  obtain ⟨rfl, rfl, rfl⟩ := Shop.logged_all h1
  obtain ⟨rfl, rfl, r1, p1⟩ := Shop.back_kept h2
  have hdate : (w'.clock.current, w'.clock.step) = (w2.clock.current, w2.clock.step) := by
    have := builtIn_date (F := fun _ => True) (Z := fun _ => True) (.effect (.maybeBackToDefault own)) out w2 (env := env)
    rw [Act.after_ok h2] at this
    exact this
  have hnil : ∀ id, tabs pre id = [] := by
    intro id
    rw [List.filterMap_eq_nil_iff]
    intro x hx
    rw [hpre x hx]
    rfl
  refine ⟨?_, fun id hid => ?_, h.still.trans (.of_eq p1 r1 (congrArg Prod.fst hdate) (congrArg Prod.snd hdate)), h.cols,
    h.nodup, fun o => h.index.trans (hi o), fun i hi => h.each i (h.index ▸ hi)⟩
  · show List.filterMap _ (pre ++ _) = _
    rw [List.filterMap_append, show List.filterMap _ pre = [] from hnil _]
    simp [Dict.get?]
  · show List.filterMap _ (pre ++ _) = _
    rw [List.filterMap_append, show List.filterMap _ pre = [] from hnil _]
    simp [Dict.get?, Ne.symm hid]

theorem speakers_all (h : 1 ∉ sc.step.rels) (o : Orders) : sc.speakers o w ids = ids := by
  rw [Scene.speakers, List.filter_eq_self]
  intro i _
  simp [h]

theorem speakers_some (h : 1 ∈ sc.step.rels) (o : Orders) :
    sc.speakers o w ids = ids.filter fun i => decide (0 < held o w 1 i) := by
  rw [Scene.speakers]
  refine List.filter_congr fun i _ => ?_
  simp [h]

/-- the operations of each step -/
theorem spoken (hsem : env.sem = AnyGen.sem env.R) (hw : Ready env sc all ids w0)
    (h : Walk env sc all w0 ["PERSON_ID"] ids f w)
    (hr : Runs (Ops.setOperations env 0 (operations env sc.fmt ⟨0, 0, 1, sc.duration, sc.site, sc.weights⟩ sc.step)) f w out ls w') :
    ∃ t, Spoke env sc all ids w0 w' ls t := by
  have rest : ∀ {cs ids' f w ls pre}, Walk env sc all w0 cs ids' f w → cs ++ ["TIME"] = sc.step.fields → Closed cs →
      "TIME" ∉ cs → (∀ o, ids' = sc.speakers o w0 ids) → (∀ x ∈ pre, x = []) →
      Runs [timestamp env sc.fmt, logger, Ops.maybeBackToDefault env 0] f w out ls w' →
      ∃ t, Spoke env sc all ids w0 w' (pre ++ ls) t := by
    intro cs ids' f w ls pre h hcs hc hn hi hpre hr
    obtain ⟨d1, w1, l1, ls1, h1, hk1, rfl⟩ := Snd.cons_runs hr
    obtain ⟨rfl, k1⟩ := walk_time hw.clock h hc hn h1
    rw [hcs] at k1
    have := k1.last hk1 hi (pre := pre ++ [[]]) (by
      intro x hx
      rcases List.mem_append.1 hx with hx | hx
      · exact hpre x hx
      · exact List.mem_singleton.1 hx)
    rw [List.append_assoc] at this
    exact ⟨_, this⟩
  cases hst : sc.step with
  | one =>
    rw [hst] at hr
    obtain ⟨d1, w1, l1, ls1, h1, hk1, rfl⟩ := Snd.cons_runs hr
    obtain ⟨rfl, k1⟩ := walk_hello h (by decide) (by decide) h1
    have hcs : ["PERSON_ID"] ++ ["HELLO"] = sc.step.fields := by rw [hst]; rfl
    rw [hcs] at k1
    exact ⟨_, k1.last hk1 (fun o => (speakers_all (by rw [hst]; decide) o).symm) (pre := [[]]) (by simp)⟩
  | two =>
    rw [hst] at hr
    obtain ⟨d1, w1, l1, ls1, h1, hk1, rfl⟩ := Snd.cons_runs hr
    obtain ⟨rfl, k1⟩ := walk_name hw h (by decide) (by decide) (by decide) h1
    obtain ⟨d2, w2, l2, ls2, h2, hk2, rfl⟩ := Snd.cons_runs hk1
    obtain ⟨rfl, k2⟩ := walk_hello k1 (by decide) (by decide) h2
    exact rest (pre := [[], []]) k2 (by rw [hst]; rfl) (by decide) (by decide)
      (fun o => (speakers_all (by rw [hst]; decide) o).symm) (by simp) hk2
  | three =>
    rw [hst] at hr
    obtain ⟨d1, w1, l1, ls1, h1, hk1, rfl⟩ := Snd.cons_runs hr
    obtain ⟨rfl, k1⟩ := walk_name hw h (by decide) (by decide) (by decide) h1
    obtain ⟨d2, w2, l2, ls2, h2, hk2, rfl⟩ := Snd.cons_runs hk1
    obtain ⟨rfl, k2⟩ := walk_hello k1 (by decide) (by decide) h2
    obtain ⟨d3, w3, l3, ls3, h3, hk3, rfl⟩ := Snd.cons_runs hk2
    obtain ⟨rfl, k3⟩ := walk_duration k2 (by decide) (by decide) h3
    obtain ⟨d4, w4, l4, ls4, h4, hk4, rfl⟩ := Snd.cons_runs hk3
    obtain ⟨rfl, k4⟩ := walk_randomSite hsem hw hst k3 (by decide) (by decide) h4
    exact rest (pre := [[], [], [], []]) k4 (by rw [hst]; rfl) (by decide) (by decide)
      (fun o => (speakers_all (by rw [hst]; decide) o).symm) (by simp) hk4
  | four | five =>
    rw [hst] at hr
    obtain ⟨d1, w1, l1, ls1, h1, hk1, rfl⟩ := Snd.cons_runs hr
    obtain ⟨rfl, k1⟩ := walk_name hw h (by decide) (by decide) (by decide) h1
    obtain ⟨d2, w2, l2, ls2, h2, hk2, rfl⟩ := Snd.cons_runs hk1
    obtain ⟨rfl, k2⟩ := walk_hello k1 (by decide) (by decide) h2
    obtain ⟨d3, w3, l3, ls3, h3, hk3, rfl⟩ := Snd.cons_runs hk2
    obtain ⟨rfl, k3⟩ := walk_duration k2 (by decide) (by decide) h3
    obtain ⟨d4, w4, l4, ls4, h4, hk4, rfl⟩ := Snd.cons_runs hk3
    obtain ⟨rfl, k4⟩ := walk_site hw (by rw [hst]; decide) (fun _ h => h) k3 (by decide) (by decide) (by decide) h4
    exact rest (pre := [[], [], [], []]) k4 (by rw [hst]; rfl) (by decide) (by decide)
      (fun o => (speakers_all (by rw [hst]; decide) o).symm) (by simp) hk4
  | six =>
    rw [hst] at hr
    obtain ⟨d1, w1, l1, ls1, h1, hk1, rfl⟩ := Snd.cons_runs hr
    obtain ⟨rfl, k1⟩ := walk_name hw h (by decide) (by decide) (by decide) h1
    obtain ⟨d2, w2, l2, ls2, h2, hk2, rfl⟩ := Snd.cons_runs hk1
    obtain ⟨rfl, k2⟩ := walk_hello k1 (by decide) (by decide) h2
    obtain ⟨d3, w3, l3, ls3, h3, hk3, rfl⟩ := Snd.cons_runs hk2
    obtain ⟨rfl, k3⟩ := walk_duration k2 (by decide) (by decide) h3
    obtain ⟨d4, w4, l4, ls4, h4, hk4, rfl⟩ := Snd.cons_runs hk3
    obtain ⟨rfl, k4⟩ := walk_site hw (by rw [hst]; decide) (fun _ h => h) k3 (by decide) (by decide) (by decide) h4
    obtain ⟨d5, w5, l5, ls5, h5, hk5, rfl⟩ := Snd.cons_runs hk4
    obtain ⟨rfl, e5, k5⟩ := walk_friend hw (by rw [hst]; decide) k4 (by decide) (by decide) (by decide) h5
    obtain ⟨d6, w6, l6, ls6, h6, hk6, rfl⟩ := Snd.cons_runs hk5
    obtain ⟨rfl, k6⟩ := walk_friendName hw k5 (by decide) (by decide) (by decide) h6
    exact rest (pre := [[], [], [], [], [], []]) k6 (by rw [hst]; rfl) (by decide) (by decide)
      (fun o => by rw [speakers_some (by rw [hst]; decide) o]; exact e5 o) (by simp) hk6
  | seven =>
    rw [hst] at hr
    obtain ⟨d1, w1, l1, ls1, h1, hk1, rfl⟩ := Snd.cons_runs hr
    obtain ⟨rfl, k1⟩ := walk_name hw h (by decide) (by decide) (by decide) h1
    obtain ⟨d2, w2, l2, ls2, h2, hk2, rfl⟩ := Snd.cons_runs hk1
    obtain ⟨rfl, k2⟩ := walk_hello k1 (by decide) (by decide) h2
    obtain ⟨d3, w3, l3, ls3, h3, hk3, rfl⟩ := Snd.cons_runs hk2
    obtain ⟨rfl, k3⟩ := walk_duration k2 (by decide) (by decide) h3
    obtain ⟨d4, w4, l4, ls4, h4, hk4, rfl⟩ := Snd.cons_runs hk3
    obtain ⟨rfl, e4, k4⟩ := walk_friend hw (by rw [hst]; decide) k3 (by decide) (by decide) (by decide) h4
    have hsub : ∀ i ∈ d4.index, i ∈ ids := by
      intro i hi
      rw [e4 env.orders] at hi
      exact List.mem_of_mem_filter hi
    obtain ⟨d5, w5, l5, ls5, h5, hk5, rfl⟩ := Snd.cons_runs hk4
    obtain ⟨rfl, k5⟩ := walk_friendName hw k4 (by decide) (by decide) (by decide) h5
    obtain ⟨d6, w6, l6, ls6, h6, hk6, rfl⟩ := Snd.cons_runs hk5
    obtain ⟨rfl, k6⟩ := walk_site hw (by rw [hst]; decide) hsub k5 (by decide) (by decide) (by decide) h6
    obtain ⟨d7, w7, l7, ls7, h7, hk7, rfl⟩ := Snd.cons_runs hk6
    obtain ⟨rfl, k7⟩ := walk_friendSite hw (by rw [hst]; decide) (by rw [hst]; decide) k6 (by decide) (by decide) (by decide) h7
    obtain ⟨d8, w8, l8, ls8, h8, hk8, rfl⟩ := Snd.cons_runs hk7
    obtain ⟨rfl, k8⟩ := walk_price k7 (by decide) (by decide) (by decide) (by decide) h8
    exact rest (pre := [[], [], [], [], [], [], [], []]) k8 (by rw [hst]; rfl) (by decide) (by decide)
      (fun o => by rw [speakers_some (by rw [hst]; decide) o]; exact e4 o) (by simp) hk8

theorem hello_builtIn {F Z : Nat → Prop} {j : Nat} {ops : List (Op (World σ (AnyGen σ)))}
    (hi : (sc.chains env)[j]? = some ops) : j = 0 ∧ ∀ op ∈ ops, BuiltIn env F Z op := by
  match j with
  | j + 1 => cases hi
  | 0 =>
    cases hi
    refine ⟨rfl, fun op hop => ?_⟩
    rw [Ops.setOperations] at hop
    rcases List.mem_append.1 hop with hop | hop
    · have h1 : ∀ k, BuiltIn env F Z (lookupName k) := fun k => .lookup _ _ _
      have h2 : BuiltIn env F Z (hello env) := .adder (.randomValues _ _)
      have h3 : ∀ r, BuiltIn env F Z (durations env r) := fun r => .adder (.randomValues _ _)
      have h4 : ∀ r, BuiltIn env F Z (randomSite env r) := fun r => .adder (.randomValues _ _)
      have h5 : ∀ k a b, BuiltIn env F Z (selectSite env k a b) := fun k a b => .selectOne _ _ _ _ _ _ _
      have h6 : ∀ k a, BuiltIn env F Z (selectFriend env k a) := fun k a => .selectOne _ _ _ _ _ _ _
      have h7 : ∀ k, BuiltIn env F Z (lookupFriend k) := fun k => .lookup _ _ _
      have h8 : BuiltIn env F Z applyPrice := .applyFrame _ _ _ fun d r hd hr => by
        rw [(price_ok hr).2.1]
        exact hd
      have h9 : ∀ k, BuiltIn env F Z (timestamp env k) := fun k => .adder (.timestamp _ _)
      have h10 : BuiltIn env F Z logger := .fieldLogger _ _ _
      have key : ∀ st, ∀ op ∈ operations env sc.fmt ⟨0, 0, 1, sc.duration, sc.site, sc.weights⟩ st, BuiltIn env F Z op := by
        intro st
        cases st <;> simp only [operations, List.forall_mem_cons, h1, h2, h3, h4, h5, h6, h7, h8, h9, h10, true_and] <;>
          simp
      exact key sc.step op hop
    · obtain rfl := List.mem_singleton.1 hop
      exact .effect (.maybeBackToDefault _)

/-- what an execution does and logs -/
structure Did (env : Env σ (AnyGen σ)) (sc : Scene) (all ids : List Val) (w w' : World σ (AnyGen σ)) (logs : Logs) :
    Prop where
  still : Still env sc.step.rels w w'
  other : ∀ id, id ≠ "hello" → tablesOf id logs = []
  spoke : ids = [] ∧ logs = [] ∨ ∃ t, tablesOf "hello" logs = [t] ∧ t.cols = sc.step.fields ∧ t.index.Nodup ∧
    (∀ o, t.index = sc.speakers o w ids) ∧
    ∀ i ∈ t.index, Told sc all w w.clock.current w.clock.step i sc.step.fields (valueAt t i)

theorem did (hsem : env.sem = AnyGen.sem env.R) (hw : Ready env sc all ids w) {j : Nat}
    {ops : List (Op (World σ (AnyGen σ)))} {logs : Logs} (hi : (sc.chains env)[j]? = some ops)
    (h : World.execute env ops j w = .ok logs w') : Did env sc all ids w w' logs := by
  obtain ⟨rfl, -⟩ := hello_builtIn hi (F := fun _ => True) (Z := fun _ => True)
  cases hi
  obtain ⟨s, w1, s1, s', hs, ha, -, -, hrest, -⟩ := execute_ok h
  have hlast : Still env sc.step.rels w1 w' := .of_eq hrest.pops hrest.rels hrest.date hrest.step
  have hact := acting_all hw.acting.1 hw.acting.2 hs
  obtain ⟨s3, hs3, hafter⟩ := ha
  rw [hs] at hs3
  cases hs3
  rcases hafter with ⟨hno, rfl, rfl⟩ | ⟨-, last, h5⟩
  · refine ⟨Still.trans (w1 := started w 0 s) (.of_eq rfl rfl rfl rfl) hlast, by simp [tablesOf], .inl ⟨?_, rfl⟩⟩
    rw [← hact, hno]
    rfl
  obtain ⟨hwf, ls, hr, hl⟩ := (chain_sequential env.logSet _ _ last _ w1).1 logs h5
  have hn : s.ids.Nodup := by
    obtain ⟨⟨t, e1, e2, -⟩, e3⟩ := hw.acting.1
    rw [hs] at e1
    cases e1
    rw [e2]
    exact e3
  have hf := hw.field s hs
  obtain ⟨n1, n2, n3⟩ := acting_names hn hf
  have hstart : Walk env sc all w ["PERSON_ID"] ids ⟨[s.idField], actingRows s⟩ (started w 0 s) := by
    refine ⟨n1, n2, by rw [← hf], hact, .of_eq rfl rfl rfl rfl, fun b => b, fun i him => ?_⟩
    constructor <;> intro hm <;> try (simp at hm; done)
    exact n3 i (by rw [← hact] at him; exact him)
  obtain ⟨t, ht⟩ := spoken hsem hw hstart hr
  have hT : ∀ id, tablesOf id logs = tabs ls id :=
    tables_of_one (fun id => by rw [tablesOf_dict hwf, hl]) ht.logged ht.other
  exact ⟨ht.still.trans hlast, fun id hid => by rw [hT]; exact ht.other id hid,
    .inr ⟨t, by rw [hT]; exact ht.logged, ht.cols, ht.nodup, ht.index, ht.each⟩⟩

theorem Ready.same (hw : Ready env sc all ids w) (hs : Still env sc.step.rels w w')
    (hf : ∀ x, w'.stories[0]? = some x → x.idField = "PERSON_ID") (ha : Beats w' 0 0 ids ∧ AllWait w' 0 0)
    (hb : ∀ {r : GenRef} {g : AnyGen σ}, Began env w r g → Began env w' r g) : Ready env sc all ids w' := by
  refine ⟨by rw [hs.pops]; exact hw.wf, by rw [hs.pops]; exact hw.persons, hw.named, hf, ha, hs.ok hw.stocks,
    fun h => ?_, fun h0 o i hi => ?_, fun h1 o x hx => ?_, by rw [hs.step]; exact hw.clock⟩
  · obtain ⟨x, hx⟩ := hw.site h
    exact ⟨x, hb hx⟩
  · obtain ⟨t, ht⟩ := hw.settled h0 o i hi
    exact ⟨t, (hs.same hw.stocks o 0 h0).mem_iff.2 ht⟩
  · exact hw.friends h1 o x ((hs.same hw.stocks o 1 h1).mem_iff.1 hx)

theorem exec_ready (hsem : env.sem = AnyGen.sem env.R) (hw : Ready env sc all ids w) {j : Nat}
    {ops : List (Op (World σ (AnyGen σ)))} {logs : Logs} (hi : (sc.chains env)[j]? = some ops)
    (h : World.execute env ops j w = .ok logs w') : Ready env sc all ids w' := by
  obtain ⟨rfl, hb⟩ := hello_builtIn hi (F := (· ≠ 0)) (Z := (· ≠ 0))
  have hd := did hsem hw hi h
  obtain ⟨a1, a2⟩ := wait_self hb h hw.acting.1 le_rfl hw.acting.2
  rw [if_pos rfl] at a2
  refine hw.same hd.still (fun x hx => ?_) ⟨a1, by exact_mod_cast a2⟩ fun hg => ?_
  · have hsame : List.Forall₂ World.SameStatic w.stories w'.stories := execute_sameStories hb h
    obtain ⟨y, hy, e⟩ := forall₂_at' hsame hx
    rw [e.1]
    exact hw.field y hy
  · obtain ⟨j, hj, hb'⟩ := began_iff.1 hg
    exact began_iff.2 ⟨j, hj, execute_gens (beganAt_inv j).toGenKept
      (fun op hop => builtIn_respects (beganAt_inv j).toGenKept (hb op hop)) h hb'⟩

theorem tick_ready (hw : Ready env sc all ids w) : Ready env sc all ids (nextStep env w) := by
  obtain ⟨h1, h2, h3, h4, ⟨a1, a2⟩, h6, h7, h8, h9, h10⟩ := hw
  refine ⟨h1, h2, h3, h4, ⟨⟨a1.story, a1.nodup⟩, a2⟩, h6, fun h => ?_, h8, h9, h10⟩
  obtain ⟨x, hg⟩ := h7 h
  obtain ⟨j, hj, hb⟩ := began_iff.1 hg
  exact ⟨x, began_iff.2 ⟨j, hj, (beganAt_inv j).tick _ hb⟩⟩

end Hello
end Trumania
