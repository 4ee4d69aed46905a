import Verif.Spec.Slides
import Verif.Proofs.BlogRun

/-! Helper lemmas: what one execution of the story of the examples of examples/presentation does. -/

namespace Trumania
namespace Slides
open Spec World Cdr
open Shop (tabs)
open Blog (Still relationsAt speakers select_of drawn_of acting_of)
variable {σ : Type} {env : Env σ (AnyGen σ)} {w w' w0 w1 w2 : World σ (AnyGen σ)} {data out f f' : Frame} {ls : List Logs}
  {l : Logs} {sc : Scene} {S : List Nat} {ids ids' : List Val} {i : Val} {d len : Int} {sentences : Int → AnyGen σ}

/-- the data of the persons `ids'` during an execution that began in `w`: the columns so far, and what is known of each
row -/
structure Draft (env : Env σ (AnyGen σ)) (S : List Nat) (ids' : List Val) (w w1 : World σ (AnyGen σ)) (f : Frame)
    (cols : List String) (Q : Val → (String → Cell) → Prop) : Prop where
  rect : Rect f
  nodup : f.index.Nodup
  index : f.index = ids'
  cols : f.cols = cols
  still : Still env S w w1
  began : ∀ (r : GenRef) (x : AnyGen σ), Began env w r x → Began env w1 r x
  each : ∀ i ∈ ids', Q i (valueAt f i)

theorem Draft.grow {cols : List String} {Q Q' : Val → (String → Cell) → Prop} (h : Draft env S ids' w w1 f cols Q)
    {name : String} (hg : Grows [name] f f') (hi : f'.index = f.index) (hs : Still env S w1 w2)
    (hb : ∀ (r : GenRef) (x : AnyGen σ), Began env w1 r x → Began env w2 r x)
    (hq : ∀ i ∈ ids', (∀ c ∈ cols, valueAt f' i c = valueAt f i c) → Q i (valueAt f i) → Q' i (valueAt f' i)) :
    Draft env S ids' w w2 f' (cols ++ [name]) Q' := by
  refine ⟨hg.rect, hg.nodup, hi.trans h.index, by rw [hg.cols, h.cols], h.still.trans hs, fun r x b => hb r x (h.began r x b),
    fun i hii => hq i hii (fun c hc => hg.kept i (by rw [hi, h.index]; exact hii) c (by rw [h.cols]; exact hc)) (h.each i hii)⟩

theorem keeps_began {op : Op (World σ (AnyGen σ))} {a b : Frame} {u v : World σ (AnyGen σ)} {l : Logs}
    (ho : BuiltIn env (fun _ => True) (fun _ => True) op) (e : op a u = .ok (b, l) v) (r : GenRef) (x : AnyGen σ)
    (hb : Began env u r x) : Began env v r x := began_op ho e hb

/-- what the first two operations tell -/
structure Said (env : Env σ (AnyGen σ)) (sentences : Int → AnyGen σ) (sc : Scene) (w : World σ (AnyGen σ)) (i : Val)
    (g : String → Cell) : Prop where
  person : g "PERSON_ID" = .scalar i
  time : ∃ k : Nat, (k : Int) * 1000000000 < w.clock.step ∧
    g "TIME" = sc.fmt (w.clock.current + (k : Int) * 1000000000)
  hello : sc.talk = .three ∨ sc.talk = .four → g "MESSAGE" = .str "hello world"
  sentence : sc.talk = .five ∨ sc.talk = .six ∨ sc.talk = .eight → ∃ seed, MayGive env (sentences seed) (g "MESSAGE")
  quote : sc.talk = .seven → ∃ t, g "MESSAGE" = .scalar t ∧ ∀ o, (∃ wt, (i, t, wt) ∈ relationsAt o w 0) ∧
    (t ≠ .na → ∃ wt, wt ≠ 0 ∧ (i, t, wt) ∈ relationsAt o w 0)

theorem Said.same {g g' : String → Cell} (h : Said env sentences sc w i g)
    (he : ∀ c ∈ ["PERSON_ID", "TIME", "MESSAGE"], g' c = g c) : Said env sentences sc w i g' := by
  obtain ⟨h1, h2, h3, h4, h5⟩ := h
  have e1 := he "PERSON_ID" (by simp)
  have e2 := he "TIME" (by simp)
  have e3 := he "MESSAGE" (by simp)
  exact ⟨by rw [e1]; exact h1, by rw [e2]; exact h2, by rw [e3]; exact h3, by rw [e3]; exact h4, by rw [e3]; exact h5⟩

/-- the date -/
theorem draft_time (hw : 0 ≤ w.clock.step) {fmt : Int → Cell}
    (h : Draft env S ids' w w1 f ["PERSON_ID"] fun i g => g "PERSON_ID" = .scalar i)
    (ho : Blog.timestamp env fmt f w1 = .ok (f', l) w2) : l = [] ∧
      Draft env S ids' w w2 f' ["PERSON_ID", "TIME"] fun i g => g "PERSON_ID" = .scalar i ∧
        ∃ k : Nat, (k : Int) * 1000000000 < w.clock.step ∧ g "TIME" = fmt (w.clock.current + (k : Int) * 1000000000) := by
  have hn1 : "TIME" ∉ f.cols := by rw [h.cols]; decide
  obtain ⟨-, g1, i1⟩ := grows_adder (env := env) (.timestamp _ _) h.rect h.nodup hn1 ho
  obtain ⟨rfl, secs, state, -, -, e1, hlt, ad⟩ :=
    C91_random_timestamps h.nodup h.rect hn1 (by rw [h.still.step]; exact hw) ho
  refine ⟨rfl, h.grow g1 i1 (.of_eq (by rw [e1]) (by rw [e1]) (by rw [e1]) (by rw [e1]))
    (keeps_began (.adder (.timestamp _ _)) ho) fun i hii hk hp => ⟨by rw [hk _ (by simp)]; exact hp, ?_⟩⟩
  have hm : valueAt f' i "TIME" ∈ secs.map fun (k : Nat) => fmt (w1.clock.current + (k : Int) * 1000000000) := by
    rw [← Shop.listIn_added h.nodup ad]
    exact List.mem_map_of_mem (by rw [i1, h.index]; exact hii)
  obtain ⟨k, hk, e'⟩ := List.mem_map.1 hm
  exact ⟨k, by rw [← h.still.step]; exact hlt k hk, by rw [← e', h.still.date]⟩

/-- the message -/
theorem draft_message (hw : Ready env sentences sc ids w) (hsub : ∀ i ∈ ids', i ∈ ids)
    (h : Draft env sc.talk.rels ids' w w1 f ["PERSON_ID", "TIME"] fun i g => g "PERSON_ID" = .scalar i ∧
        ∃ k : Nat, (k : Int) * 1000000000 < w.clock.step ∧ g "TIME" = sc.fmt (w.clock.current + (k : Int) * 1000000000))
    (ho : message env ⟨0, 0, sc.sentences, sc.choice⟩ sc.talk f w1 = .ok (f', l) w2) : l = [] ∧
      Draft env sc.talk.rels ids' w w2 f' ["PERSON_ID", "TIME", "MESSAGE"] (Said env sentences sc w) := by
  have hn : "MESSAGE" ∉ f.cols := by rw [h.cols]; decide
  have hcase : (sc.talk = .three ∨ sc.talk = .four) ∨ (sc.talk = .five ∨ sc.talk = .six ∨ sc.talk = .eight) ∨
      sc.talk = .seven := by cases sc.talk <;> simp
  rcases hcase with ht | ht | ht
  · have ho : Blog.hello env f w1 = .ok (f', l) w2 := by rcases ht with ht | ht <;> (rw [ht] at ho; exact ho)
    obtain ⟨rfl, g2, i2, s2, values, n, e, hv⟩ := drawn_of (S := sc.talk.rels) h.rect h.nodup hn ho
    refine ⟨rfl, h.grow g2 i2 s2 (keeps_began (.adder (.randomValues _ _)) ho) fun i hii hk hp => ?_⟩
    refine ⟨by rw [hk _ (by simp)]; exact hp.1, by rw [hk _ (by simp)]; exact hp.2, fun _ => ?_, fun k => ?_, fun k => ?_⟩
    · rw [World.generate, World.call] at e
      obtain ⟨e, -⟩ := Act.pure_eq_ok.1 e
      have := hv i (by rw [i2, h.index]; exact hii)
      rw [← e] at this
      exact List.eq_of_mem_replicate this
    · rcases ht with ht | ht <;> simp [ht] at k
    · rcases ht with ht | ht <;> simp [ht] at k
  · have ho : sentence env sc.sentences f w1 = .ok (f', l) w2 := by
      rcases ht with ht | ht | ht <;> (rw [ht] at ho; exact ho)
    obtain ⟨rfl, g2, i2, s2, values, n, e, hv⟩ := drawn_of (S := sc.talk.rels) h.rect h.nodup hn ho
    refine ⟨rfl, h.grow g2 i2 s2 (keeps_began (.adder (.randomValues _ _)) ho) fun i hii hk hp => ?_⟩
    refine ⟨by rw [hk _ (by simp)]; exact hp.1, by rw [hk _ (by simp)]; exact hp.2, fun k => ?_, fun _ => ?_, fun k => ?_⟩
    · rcases ht with ht | ht | ht <;> simp [ht] at k
    · obtain ⟨seed, hb⟩ := hw.said ht
      obtain ⟨j, x, hj, hx, hd⟩ := h.began _ _ hb
      rw [hj] at e
      obtain ⟨a, a', e5, e6, -⟩ := generate_ref_ok.1 e
      rw [hx] at e5
      cases e5
      exact ⟨seed, x, _, values, a', hd, e6, hv i (by rw [i2, h.index]; exact hii)⟩
    · rcases ht with ht | ht | ht <;> simp [ht] at k
  · have ho : Blog.quote env 0 f w1 = .ok (f', l) w2 := by rw [ht] at ho; exact ho
    have h0 : 0 ∈ sc.talk.rels := by rw [ht]; decide
    obtain ⟨rfl, g2, s2, i2, hv⟩ := select_of h.rect h.nodup hn (h.still.ok hw.stocks) h0 ho
    refine ⟨rfl, h.grow g2 i2 s2 (keeps_began (.selectOne _ _ _ _ _ _ _) ho) fun i hii hk hp => ?_⟩
    refine ⟨by rw [hk _ (by simp)]; exact hp.1, by rw [hk _ (by simp)]; exact hp.2, fun k => by simp [ht] at k,
      fun k => by simp [ht] at k, fun _ => ?_⟩
    obtain ⟨t, htv, hc, hz⟩ := hv i (by rw [i2, h.index]; exact hii)
    rw [hp.1] at hc hz
    have htwo : ∀ o, 2 ≤ held o w1 0 i := fun o => by
      rw [h.still.held hw.stocks h0]
      exact hw.quotes ht o i (hsub i hii)
    refine ⟨t, htv, fun o => ⟨?_, fun hna => ?_⟩⟩
    · rcases hc with hc | ⟨-, hc⟩
      · obtain ⟨wt, hm⟩ := hc o
        exact ⟨wt, (h.still.same hw.stocks o 0 h0).mem_iff.1 hm⟩
      · have := htwo o
        have h0' : held o w1 0 i = 0 := hc o
        omega
    · obtain ⟨wt, hz0, hm⟩ := hz o hna (htwo o)
      exact ⟨wt, hz0, (h.still.same hw.stocks o 0 h0).mem_iff.1 hm⟩

/-- another person -/
theorem draft_anyone (hsem : env.sem = AnyGen.sem env.R) (hw : Ready env sentences sc ids w) (h3 : sc.talk ≠ .three)
    (h : Draft env sc.talk.rels ids' w w1 f ["PERSON_ID", "TIME", "MESSAGE"] (Said env sentences sc w))
    (ho : Blog.anyone env sc.choice f w1 = .ok (f', l) w2) : l = [] ∧
      Draft env sc.talk.rels ids' w w2 f' ["PERSON_ID", "TIME", "MESSAGE", "OTHER_PERSON"] fun i g =>
        Said env sentences sc w i g ∧ ∃ t ∈ ids, g "OTHER_PERSON" = .scalar t := by
  obtain ⟨rfl, g2, i2, s2, values, n, e, hv⟩ := drawn_of (S := sc.talk.rels) h.rect h.nodup (by rw [h.cols]; decide) ho
  refine ⟨rfl, h.grow g2 i2 s2 (keeps_began (.adder (.randomValues _ _)) ho) fun i hii hk hp => ⟨hp.same hk, ?_⟩⟩
  obtain ⟨x, hx⟩ := hw.anyone h3
  obtain ⟨t, h1, h2⟩ := Shop.began_choice hsem (h.began _ _ hx) e _ (hv i (by rw [i2, h.index]; exact hii))
  exact ⟨t, h1, h2⟩

/-- the names of both -/
theorem draft_names (hw : Ready env sentences sc ids w)
    (h : Draft env sc.talk.rels ids' w w1 f ["PERSON_ID", "TIME", "MESSAGE", "OTHER_PERSON"] fun i g =>
        Said env sentences sc w i g ∧ ∃ t ∈ ids, g "OTHER_PERSON" = .scalar t) {l1 l2 : Logs}
    (ho : Blog.emitter 0 f w1 = .ok (f', l1) w2) (ho' : Blog.receiver 0 f' w2 = .ok (out, l2) w') : l1 = [] ∧ l2 = [] ∧
      Draft env sc.talk.rels ids' w w' out ["PERSON_ID", "TIME", "MESSAGE", "OTHER_PERSON", "EMITTER_NAME", "RECEIVER_NAME"]
        fun i g => Said env sentences sc w i g ∧ (∃ t ∈ ids, g "OTHER_PERSON" = .scalar t ∧
          ValueOf w 0 "NAME" t (g "RECEIVER_NAME")) ∧ ValueOf w 0 "NAME" i (g "EMITTER_NAME") := by
  have hwf : ∀ p ∈ w1.pops, Population.WF p := by rw [h.still.pops]; exact hw.wf
  obtain ⟨rfl, rfl, g4, i4, p4, hp4, m4⟩ := grows_lookup_of hwf h.rect h.nodup (by decide) (by rw [h.cols]; decide) ho
  have k4 := h.grow (Q' := fun i g => (Said env sentences sc w i g ∧ ∃ t ∈ ids, g "OTHER_PERSON" = .scalar t) ∧
      ValueOf w 0 "NAME" i (g "EMITTER_NAME")) g4 i4 .refl (fun _ _ b => b) fun i hii hk hp => by
    refine ⟨⟨hp.1.same fun c hc => hk c ?_, ?_⟩, ?_⟩
    · simp only [List.mem_cons, List.not_mem_nil, or_false] at hc ⊢
      tauto
    · rw [hk "OTHER_PERSON" (by simp)]
      exact hp.2
    · obtain ⟨a, ha, hl⟩ := m4 i (by rw [i4, h.index]; exact hii) ("NAME", "EMITTER_NAME") (by simp)
      rw [hp.1.person] at hl
      exact ⟨p4, a, by rw [← h.still.pops]; exact hp4, ha, hl⟩
  obtain ⟨rfl, rfl, g5, i5, p5, hp5, m5⟩ := grows_lookup_of hwf k4.rect k4.nodup (by decide) (by rw [k4.cols]; decide) ho'
  refine ⟨rfl, rfl, k4.grow g5 i5 .refl (fun _ _ b => b) fun i hii hk hp => ?_⟩
  refine ⟨hp.1.1.same fun c hc => hk c ?_, ?_, ?_⟩
  · simp only [List.cons_append, List.nil_append, List.mem_cons, List.not_mem_nil, or_false] at hc ⊢
    tauto
  · obtain ⟨t, ht, e⟩ := hp.1.2
    refine ⟨t, ht, by rw [hk "OTHER_PERSON" (by simp)]; exact e, ?_⟩
    obtain ⟨a, ha, hl⟩ := m5 i (by rw [i5, k4.index]; exact hii) ("NAME", "RECEIVER_NAME") (by simp)
    rw [e] at hl
    exact ⟨p5, a, by rw [← h.still.pops]; exact hp5, ha, hl⟩
  · rw [hk "EMITTER_NAME" (by simp)]
    exact hp.2

/-- what is logged: the columns asked for, or all of them -/
theorem logged_cols {logId : String} {cols : List String} {l : Logs} (hn : data.index.Nodup)
    (h : Ops.fieldLogger logId cols [] data w = .ok (out, l) w') : w' = w ∧ out = data ∧
      ∃ t, l = [(logId, t)] ∧ t.index = data.index ∧ t.cols = (if cols = [] then data.cols else cols) ∧
        ∀ i ∈ t.index, ∀ c ∈ t.cols, valueAt t i c = valueAt data i c := by
  by_cases hc : cols = []
  · subst hc
    obtain ⟨rfl, rfl, rfl⟩ := Shop.logged_all h
    exact ⟨rfl, rfl, _, rfl, rfl, by rw [if_pos rfl], fun _ _ _ _ => rfl⟩
  · obtain ⟨rfl, rfl, t, rfl, h1, h2⟩ := logged_rows hc hn h
    obtain ⟨logged, k1, k2, -⟩ := fieldLogger_eq_ok.1 h
    cases k2
    simp only [Ops.loggedData, Ops.explode, Ops.loggerCols, List.append_nil, if_true] at k1
    replace k1 : (if cols = [] then Except.ok out else out.select cols) = .ok t := k1
    rw [if_neg hc] at k1
    obtain ⟨e1, -⟩ := Frame.select_ok k1
    refine ⟨rfl, rfl, t, rfl, h1, by rw [if_neg hc]; exact e1, fun i hi c hm => ?_⟩
    obtain ⟨r, hr, rfl⟩ := mem_index.1 hi
    rw [valueAt_row (by rw [h1]; exact hn) hr]
    exact h2 r hr c (by rw [← e1]; exact hm)

/-- what the operations of the story do with the records of the persons `ids'` -/
structure Spoke (env : Env σ (AnyGen σ)) (sentences : Int → AnyGen σ) (sc : Scene) (ids ids' : List Val)
    (w w' : World σ (AnyGen σ)) (ls : List Logs) (t : Frame) : Prop where
  logged : tabs ls "hello" = [t]
  other : ∀ id, id ≠ "hello" → tabs ls id = []
  still : Still env sc.talk.rels w w'
  cols : t.cols = sc.talk.fields
  index : t.index = ids'
  each : ∀ i ∈ ids', Told env sentences sc ids w w.clock.current w.clock.step i (valueAt t i)

/-- the last operations: the log, and the end of the story -/
theorem ended {cols : List String} {Q : Val → (String → Cell) → Prop}
    (h : Draft env sc.talk.rels ids' w w1 f cols Q)
    (hr : Runs [Ops.fieldLogger "hello" sc.talk.cols [], Ops.maybeBackToDefault env 0] f w1 out ls w')
    (hf : (if sc.talk.cols = [] then cols else sc.talk.cols) = sc.talk.fields)
    (hq : ∀ i g g', Q i g → (∀ c ∈ sc.talk.fields, g' c = g c) →
      Told env sentences sc ids w w.clock.current w.clock.step i g') :
    ∃ t, Spoke env sentences sc ids ids' w w' ls t := by
  obtain ⟨f6, w7, l6, ls6, h6, hk6, rfl⟩ := Snd.cons_runs hr
  obtain ⟨f7, w8, l7, ls7, h7, hk7, rfl⟩ := Snd.cons_runs hk6
  cases hk7
  obtain ⟨rfl, rfl, t, rfl, e1, e2, e3⟩ := logged_cols h.nodup h6
  obtain ⟨rfl, rfl, r7, p7⟩ := Shop.back_kept h7
  have hdate : (w'.clock.current, w'.clock.step) = (w7.clock.current, w7.clock.step) := by
    have := builtIn_date (F := fun _ => True) (Z := fun _ => True) (.effect (.maybeBackToDefault 0)) out w7 (env := env)
    rw [Act.after_ok h7] at this
    exact this
  have e2 : t.cols = sc.talk.fields := by rw [e2, h.cols]; exact hf
  refine ⟨t, ?_, fun id hid => ?_, h.still.trans (.of_eq p7 r7 (congrArg Prod.fst hdate) (congrArg Prod.snd hdate)), e2,
    e1.trans h.index, fun i hii => hq i _ _ (h.each i hii) fun c hc => ?_⟩
  · show List.filterMap (fun x => Dict.get? x "hello") _ = _
    simp [List.filterMap_cons, Dict.get?]
  · show List.filterMap _ _ = _
    simp [Dict.get?, Ne.symm hid]
  · exact e3 i (by rw [e1, h.index]; exact hii) c (by rw [e2]; exact hc)

/-- what is known of the first columns, told -/
theorem Said.told {g g' : String → Cell} (h : Said env sentences sc w i g) (he : ∀ c ∈ sc.talk.fields, g' c = g c)
    (ho : sc.talk ≠ .three → ∃ t ∈ ids, ("OTHER_PERSON" ∈ sc.talk.fields → g "OTHER_PERSON" = .scalar t) ∧
      ("RECEIVER_NAME" ∈ sc.talk.fields → ValueOf w 0 "NAME" t (g "RECEIVER_NAME")))
    (hm : "EMITTER_NAME" ∈ sc.talk.fields → ValueOf w 0 "NAME" i (g "EMITTER_NAME")) :
    Told env sentences sc ids w w.clock.current w.clock.step i g' := by
  have e2 : g' "TIME" = g "TIME" := he _ (by cases sc.talk <;> decide)
  have e3 : g' "MESSAGE" = g "MESSAGE" := he _ (by cases sc.talk <;> decide)
  obtain ⟨h1, h2, h3, h4, h5⟩ := h
  refine ⟨fun k => by rw [he _ k]; exact h1, by rw [e2]; exact h2, by rw [e3]; exact h3, by rw [e3]; exact h4,
    by rw [e3]; exact h5, fun k => ?_, fun k => by rw [he _ k]; exact hm k⟩
  obtain ⟨t, ht, k1, k2⟩ := ho k
  exact ⟨t, ht, fun hh => by rw [he _ hh]; exact k1 hh, fun hh => by rw [he _ hh]; exact k2 hh⟩

theorem spoken (hsem : env.sem = AnyGen.sem env.R) (hw : Ready env sentences sc ids w) (hs : Still env sc.talk.rels w w1)
    (hb : ∀ {r : GenRef} {x : AnyGen σ}, Began env w r x → Began env w1 r x)
    (hrect : Rect f) (hn : f.index.Nodup) (hcols : f.cols = ["PERSON_ID"]) (hi : f.index = ids')
    (hsub : ∀ i ∈ ids', i ∈ ids) (hid : ∀ i ∈ ids', valueAt f i "PERSON_ID" = .scalar i)
    (hr : Runs (Ops.setOperations env 0 (operations env sc.fmt ⟨0, 0, sc.sentences, sc.choice⟩ sc.talk)) f w1 out ls w') :
    ∃ t, Spoke env sentences sc ids ids' w w' ls t := by
  have d0 : Draft env sc.talk.rels ids' w w1 f ["PERSON_ID"] fun i g => g "PERSON_ID" = .scalar i :=
    ⟨hrect, hn, hi, hcols, hs, fun _ _ => hb, hid⟩
  obtain ⟨f1, w2, l1, ls1, h1, hk1, rfl⟩ := Snd.cons_runs hr
  obtain ⟨f2, w3, l2, ls2, h2, hk2, rfl⟩ := Snd.cons_runs hk1
  obtain ⟨rfl, d1⟩ := draft_time hw.clock d0 h1
  obtain ⟨rfl, d2⟩ := draft_message hw hsub d1 h2
  have tabs_nil : ∀ {l : List Logs} {t : Frame}, Spoke env sentences sc ids ids' w w' l t →
      Spoke env sentences sc ids ids' w w' ([] :: l) t := fun h => ⟨h.logged, h.other, h.still, h.cols, h.index, h.each⟩
  have hcase : sc.talk = .three ∨ sc.talk = .five ∨ (sc.talk = .four ∨ sc.talk = .six ∨ sc.talk = .seven ∨ sc.talk = .eight) := by
    cases sc.talk <;> simp
  rcases hcase with ht | ht | ht
  · replace hk2 : Runs [Ops.fieldLogger "hello" sc.talk.cols [], Ops.maybeBackToDefault env 0] f2 w3 out ls2 w' := by
      rw [ht] at hk2 ⊢
      exact hk2
    obtain ⟨t, k⟩ := ended (sentences := sentences) (ids := ids) d2 hk2 (by rw [ht]; rfl) fun i g g' h he =>
      h.told he (fun k => absurd ht k) fun k => absurd (ht ▸ k) (by decide)
    exact ⟨t, tabs_nil (tabs_nil k)⟩
  · replace hk2 : Runs [Blog.anyone env sc.choice, Ops.fieldLogger "hello" sc.talk.cols [], Ops.maybeBackToDefault env 0]
        f2 w3 out ls2 w' := by
      rw [ht] at hk2 ⊢
      exact hk2
    obtain ⟨f3, w4, l3, ls3, h3, hk3, rfl⟩ := Snd.cons_runs hk2
    obtain ⟨rfl, d3⟩ := draft_anyone hsem hw (by rw [ht]; decide) d2 h3
    obtain ⟨t, k⟩ := ended (sentences := sentences) (ids := ids) d3 hk3 (by rw [ht]; rfl) fun i g g' h he =>
      h.1.told he (fun _ => by
        obtain ⟨t, ht', e⟩ := h.2
        exact ⟨t, ht', fun _ => e, fun k => absurd (ht ▸ k) (by decide)⟩) fun k => absurd (ht ▸ k) (by decide)
    exact ⟨t, tabs_nil (tabs_nil (tabs_nil k))⟩
  · replace hk2 : Runs [Blog.anyone env sc.choice, Blog.emitter 0, Blog.receiver 0, Ops.fieldLogger "hello" sc.talk.cols [],
        Ops.maybeBackToDefault env 0] f2 w3 out ls2 w' := by
      rcases ht with ht | ht | ht | ht <;> (rw [ht] at hk2 ⊢; exact hk2)
    obtain ⟨f3, w4, l3, ls3, h3, hk3, rfl⟩ := Snd.cons_runs hk2
    obtain ⟨f4, w5, l4, ls4, h4, hk4, rfl⟩ := Snd.cons_runs hk3
    obtain ⟨f5, w6, l5, ls5, h5, hk5, rfl⟩ := Snd.cons_runs hk4
    obtain ⟨rfl, d3⟩ := draft_anyone hsem hw (by rcases ht with ht | ht | ht | ht <;> (rw [ht]; decide)) d2 h3
    obtain ⟨rfl, rfl, d5⟩ := draft_names hw d3 h4 h5
    obtain ⟨t, k⟩ := ended (sentences := sentences) (ids := ids) d5 hk5
      (by rcases ht with ht | ht | ht | ht <;> (rw [ht]; rfl)) fun i g g' h he =>
      h.1.told he (fun _ => by
        obtain ⟨t, ht', e, e'⟩ := h.2.1
        exact ⟨t, ht', fun _ => e, fun _ => e'⟩) fun _ => h.2.2
    exact ⟨t, tabs_nil (tabs_nil (tabs_nil (tabs_nil (tabs_nil k))))⟩

theorem slides_builtIn {F Z : Nat → Prop} {j : Nat} {ops : List (Op (World σ (AnyGen σ)))}
    (hi : (sc.chains env)[j]? = some ops) : j = 0 ∧ ∀ op ∈ ops, BuiltIn env F Z op := by
  match j with
  | j + 1 => cases hi
  | 0 =>
    cases hi
    refine ⟨rfl, fun op hop => ?_⟩
    rw [Ops.setOperations] at hop
    rcases List.mem_append.1 hop with hop | hop
    · have key : ∀ x st, ∀ op ∈ operations env sc.fmt x st, BuiltIn env F Z op := by
        intro x st
        have h1 : BuiltIn env F Z (Blog.timestamp env sc.fmt) := .adder (.timestamp _ _)
        have h2 : BuiltIn env F Z (message env x st) := by
          cases st
          case seven => exact .selectOne _ _ _ _ _ _ _
          all_goals exact .adder (.randomValues _ _)
        have h3 : BuiltIn env F Z (Blog.anyone env x.choice) := .adder (.randomValues _ _)
        have h4 : BuiltIn env F Z (Blog.emitter x.person) := .lookup _ _ _
        have h5 : BuiltIn env F Z (Blog.receiver x.person) := .lookup _ _ _
        have h6 : BuiltIn env F Z (Ops.fieldLogger "hello" st.cols []) := .fieldLogger _ _ _
        cases st <;> simp only [operations, others, List.cons_append, List.nil_append, List.forall_mem_cons, h1, h2, h3, h4,
          h5, h6, true_and] <;> simp
      exact key _ sc.talk op hop
    · obtain rfl := List.mem_singleton.1 hop
      exact .effect (.maybeBackToDefault _)

/-- what an execution does and logs -/
structure Did (env : Env σ (AnyGen σ)) (sentences : Int → AnyGen σ) (sc : Scene) (ids : List Val)
    (w w' : World σ (AnyGen σ)) (logs : Logs) : Prop where
  still : Still env sc.talk.rels w w'
  other : ∀ id, id ≠ "hello" → tablesOf id logs = []
  spoke : speakers w ids = [] ∧ logs = [] ∨ speakers w ids ≠ [] ∧ ∃ t, tablesOf "hello" logs = [t] ∧
    t.cols = sc.talk.fields ∧ t.index = speakers w ids ∧
    ∀ i ∈ t.index, Told env sentences sc ids w w.clock.current w.clock.step i (valueAt t i)

theorem did (hsem : env.sem = AnyGen.sem env.R) (hw : Ready env sentences sc ids w) {j : Nat}
    {ops : List (Op (World σ (AnyGen σ)))} {logs : Logs} (hi : (sc.chains env)[j]? = some ops)
    (h : World.execute env ops j w = .ok logs w') : Did env sentences sc ids w w' logs := by
  obtain ⟨rfl, -⟩ := slides_builtIn hi (F := fun _ => True) (Z := fun _ => True)
  cases hi
  obtain ⟨s, w1, s1, s', hs, ha, -, -, hrest, -⟩ := execute_ok h
  have hlast : Still env sc.talk.rels w1 w' := .of_eq hrest.pops hrest.rels hrest.date hrest.step
  obtain ⟨x, hx, hf, hids⟩ := hw.story
  rw [hs] at hx
  cases hx
  have hn : s.ids.Nodup := by
    obtain ⟨p, hp, e⟩ := hw.persons
    rw [hids, ← e]
    exact (hw.wf p (List.mem_of_getElem? hp)).ids
  have hact : (actingRows s).map (·.idx) = speakers w ids := by rw [← hids]; exact acting_of hs hn
  obtain ⟨s3, hs3, hafter⟩ := ha
  rw [hs] at hs3
  cases hs3
  rcases hafter with ⟨hno, rfl, rfl⟩ | ⟨hsome, last, h5⟩
  · refine ⟨Still.trans (w1 := started w 0 s) (.of_eq rfl rfl rfl rfl) hlast, by simp [tablesOf], .inl ⟨?_, rfl⟩⟩
    rw [← hact, hno]
    rfl
  obtain ⟨hwf, ls, hr, hl⟩ := (chain_sequential env.logSet _ _ last _ w1).1 logs h5
  obtain ⟨n1, n2, n3⟩ := acting_names hn hf
  obtain ⟨t, ht⟩ := spoken (ids' := speakers w ids) (w1 := started w 0 s) hsem hw (.of_eq rfl rfl rfl rfl) (fun b => b) n1 n2
    (by rw [← hf]) hact (fun i hi => List.mem_of_mem_filter hi) (fun i hi => n3 i (by rw [← hact] at hi; exact hi)) hr
  have hT : ∀ id, tablesOf id logs = tabs ls id :=
    tables_of_one (fun id => by rw [tablesOf_dict hwf, hl]) ht.logged ht.other
  refine ⟨ht.still.trans hlast, fun id hid => by rw [hT]; exact ht.other id hid,
    .inr ⟨fun e => hsome ?_, t, by rw [hT]; exact ht.logged, ht.cols, ht.index, fun i hi => ht.each i (ht.index ▸ hi)⟩⟩
  rw [← hact, List.map_eq_nil_iff] at e
  exact e

theorem Ready.same (hw : Ready env sentences sc ids w) (hs : Still env sc.talk.rels w w')
    (hf : ∃ x, w'.stories[0]? = some x ∧ x.idField = "PERSON_ID" ∧ x.ids = ids)
    (hb : ∀ {r : GenRef} {g : AnyGen σ}, Began env w r g → Began env w' r g) : Ready env sentences sc ids w' := by
  refine ⟨by rw [hs.pops]; exact hw.wf, by rw [hs.pops]; exact hw.persons, hf, hs.ok hw.stocks, fun h => ?_,
    fun h => ?_, fun h0 o i hi => ?_, by rw [hs.step]; exact hw.clock⟩
  · obtain ⟨x, hx⟩ := hw.said h
    exact ⟨x, hb hx⟩
  · obtain ⟨x, hx⟩ := hw.anyone h
    exact ⟨x, hb hx⟩
  · rw [hs.held hw.stocks (by rw [h0]; decide)]
    exact hw.quotes h0 o i hi

theorem exec_ready (hsem : env.sem = AnyGen.sem env.R) (hw : Ready env sentences sc ids w) {j : Nat}
    {ops : List (Op (World σ (AnyGen σ)))} {logs : Logs} (hi : (sc.chains env)[j]? = some ops)
    (h : World.execute env ops j w = .ok logs w') : Ready env sentences sc ids w' := by
  obtain ⟨rfl, hb⟩ := slides_builtIn hi (F := (· ≠ 0)) (Z := (· ≠ 0))
  have hd := did hsem hw hi h
  refine hw.same hd.still ?_ fun hg => ?_
  · have hsame : List.Forall₂ World.SameStatic w.stories w'.stories := execute_sameStories hb h
    obtain ⟨x, hx, h1, h2⟩ := hw.story
    obtain ⟨y, hy, e⟩ := forall₂_at hsame hx
    exact ⟨y, hy, by rw [e.1]; exact h1, e.2.trans h2⟩
  · obtain ⟨j, hj, hb'⟩ := began_iff.1 hg
    exact began_iff.2 ⟨j, hj, execute_gens (beganAt_inv j).toGenKept
      (fun op hop => builtIn_respects (beganAt_inv j).toGenKept (hb op hop)) h hb'⟩

theorem tick_ready (hw : Ready env sentences sc ids w) : Ready env sentences sc ids (nextStep env w) := by
  have hb : ∀ {r : GenRef} {x : AnyGen σ}, Began env w r x → Began env (nextStep env w) r x := fun hg => by
    obtain ⟨j, hj, hb⟩ := began_iff.1 hg
    exact began_iff.2 ⟨j, hj, (beganAt_inv j).tick _ hb⟩
  obtain ⟨h1, h2, h3, h4, h5, h6, h7, h8⟩ := hw
  refine ⟨h1, h2, h3, h4, fun h => ?_, fun h => ?_, h7, h8⟩
  · obtain ⟨x, hg⟩ := h5 h
    exact ⟨x, hb hg⟩
  · obtain ⟨x, hg⟩ := h6 h
    exact ⟨x, hb hg⟩

end Slides
end Trumania
