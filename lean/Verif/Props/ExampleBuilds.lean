import Verif.Proofs.Builds
import Verif.Props.SlidesRuns

/-!
# C137: the examples of the presentation and of the blog never raise, from the creation of the circus to the end of the run
-/

namespace Trumania
namespace Builds
open Spec World Circus Cdr
open Shop (Site onWorld_ok)
open Hello (Weighted Lot)
variable {σ : Type} {env : Env σ (AnyGen σ)} {w w' : World σ (AnyGen σ)} {c c' : Circus σ (AnyGen σ)}
  {R : List (List (Val × Val × Rat))} {P : List Population} {T : List (Story σ)} {k : Int × Int}

/-- the story, the first one of the circus -/
theorem ends_helloStory {q : Population} (hl : q.ids.length = q.size) (hs : Lot env R [q] [] k c.world) :
    Ends (Circus.createStory env (Blog.helloStory 0 none)) c :=
  Ends.onWorld (ends_createStory (p := q) (by rw [hs.pops]; rfl) (hs.wf q (by simp)).ids hl
    (by rw [findStory, hs.stories]; rfl) rfl (.const ⟨1, rfl⟩) (.inl ⟨1, rfl⟩))

theorem ends_activeStory {q : Population} (hl : q.ids.length = q.size) (hs : Lot env R [q] [] k c.world) {t a : GenRef}
    {x y : AnyGen σ} (ht : Began env c.world t x) (ha : Began env c.world a y)
    (hx : AlwaysAnswers env x (fun c => ∃ q, c = .num q) IsAmount) (hy : AlwaysGives env y fun c => ∃ q, c = .num q) :
    Ends (Circus.createStory env (Blog.helloStory 0 (some (t, a)))) c :=
  Ends.onWorld (ends_createStory (p := q) (by rw [hs.pops]; rfl) (hs.wf q (by simp)).ids hl
    (by rw [findStory, hs.stories]; rfl) rfl (.ref ha hy) (.inr ⟨x, ht, hx⟩))

/-! ### The presentation -/

theorem ends_slideStory (hsem : env.sem = AnyGen.sem env.R) {g : Blog.Parts (AnyGen σ)} {b : SeqGen} (hg : g.Usual b)
    {t : Slides.Talk} {q : Population} (hl : q.ids.length = q.size) (hs : Lot env R [q] [] k c.world)
    (ht : t = .eight → ∀ seed, AlwaysAnswers env (g.timer seed) (fun c => ∃ q, c = .num q) IsAmount) :
    Ends (Slides.addStory env g 0 t) c := by
  by_cases h8 : t = .eight
  · subst h8
    rw [Slides.addStory]
    refine (Ends.onWorld (ends_seeded _ _)).bind fun r1 c1 h1 => ?_
    obtain ⟨u1, h1', rfl⟩ := onWorld_ok h1
    refine (Ends.onWorld (ends_seeded _ _)).bind fun r2 c2 h2 => ?_
    obtain ⟨u2, h2', rfl⟩ := onWorld_ok h2
    obtain ⟨s2, ⟨seed, b1⟩, x, b2⟩ := Slides.activity_lot hg hs h1' h2'
    exact ends_activeStory (c := { c with world := u2 }) hl s2 b1 b2 (ht rfl seed)
      (nums_of_list (gives_choice hsem (by simp)) (by simp))
  · have e : Slides.addStory env g 0 t = Circus.createStory env (Blog.helloStory 0 none) := by
      revert h8
      cases t <;> simp [Slides.addStory]
    rw [e]
    exact ends_helloStory hl hs

theorem ends_cast {g : Blog.Parts (AnyGen σ)} {t : Slides.Talk} {q : Population}
    (hq : t = .seven → q.relationships.get? "quotes" = some 0) (hs : Lot env R [q] T k w) : Ends (Slides.cast env g 0 t) w := by
  have hp : w.pops[0]? = some q := by rw [hs.pops]; rfl
  have hsent : Ends (do
      let sentences ← Snd.seeded env g.quotes
      let choice ← Blog.choiceIn env g 0
      pure (⟨0, 0, sentences, choice⟩ : Slides.Cast)) w := by
    refine (ends_seeded _ _).bind fun r1 w1 h1 => ?_
    exact (ends_choiceIn (by rw [(Hello.lot_seeded hs h1).pops]; rfl)).bind fun _ _ _ => Ends.pure
  cases t with
  | three => exact Ends.pure
  | four => exact (ends_choiceIn hp).bind fun _ _ _ => Ends.pure
  | seven =>
    refine (ends_relNamed hp (hq rfl)).bind fun r1 w1 h1 => ?_
    obtain ⟨rfl, -⟩ := Blog.relNamed_lot rfl hs h1
    exact (ends_choiceIn hp).bind fun _ _ _ => Ends.pure
  | five => exact hsent
  | six => exact hsent
  | eight => exact hsent

/-- **C137** The construction of an example of the presentation never raises, if the generators of names and of ages always
give values (and that of sentences, ids, in script 7), and if the timer always answers (script 8). -/
theorem C137_slides_build (hsem : env.sem = AnyGen.sem env.R) {t : Slides.Talk} (n : Nat) {g : Blog.Parts (AnyGen σ)}
    {b : SeqGen} (hg : g.Usual b) (hnames : ∀ seed, AlwaysGives env (g.names seed) fun _ => True)
    (hages : ∀ seed, AlwaysGives env (g.ages seed) fun _ => True)
    (hquotes : t = .seven → ∀ seed, AlwaysGives env (g.quotes seed) (IdIn fun _ => True))
    (ht : t = .eight → ∀ seed, AlwaysAnswers env (g.timer seed) (fun c => ∃ q, c = .num q) IsAmount) (fmt : Int → Cell)
    {name : String} {seed start step : Int} (hnew : Circus.new env.R name seed start step = .ok c) :
    ∃ ops c', t.build env n g fmt c = .ok ops c' := by
  have hlen : (idsFrom b n).length = n := Music.length_idsFrom _ _
  show Ends (t.build env n g fmt) c
  rw [Slides.Talk.build]
  refine (ends_slidePersons hsem hg hnames hages hnew).bind fun i c1 h1 => ?_
  obtain ⟨rfl, a, y, -, -, s1⟩ := Slides.createPersons_lot hsem hg hnew h1
  have hq : Ends (Slides.addQuotes env g 0 t) c1.world := by
    by_cases h7 : t = .seven
    · subst h7
      exact ends_addQuotes hsem rfl hlen s1 (hquotes rfl)
    · have e : Slides.addQuotes env g 0 t = pure () := by
        revert h7
        cases t <;> simp [Slides.addQuotes]
      rw [e]
      exact Ends.pure
  refine hq.onWorld.bind fun x2 c2 h2 => ?_
  obtain ⟨u2, h2', rfl⟩ := onWorld_ok h2
  obtain ⟨R, q, s2, hids, hsize, -, -, hQ⟩ := Slides.quotes_lot hsem hlen rfl s1 h2'
  have hl : q.ids.length = q.size := by
    rw [hids, hsize]
    exact hlen
  refine (ends_slideStory (c := { c1 with world := u2 }) hsem hg hl s2 ht).bind fun own c3 h3 => ?_
  obtain ⟨rfl, s, -, -, s3, -⟩ := Slides.story_lot (c := { c1 with world := u2 }) hsem hg s2 h3
  exact (Ends.onWorld (ends_cast (fun k => (hQ k).2) s3)).bind fun _ _ _ => Ends.pure

/-- **C137** An example of the presentation never raises, from the creation of the circus to the end of its run, under the
same conditions. -/
theorem C137_slides (hsem : env.sem = AnyGen.sem env.R) {t : Slides.Talk} {n : Nat} (hn : t ≠ .three → 0 < n)
    {g : Blog.Parts (AnyGen σ)} {b : SeqGen} (hg : g.Usual b) (hnames : ∀ seed, AlwaysGives env (g.names seed) fun _ => True)
    (hages : ∀ seed, AlwaysGives env (g.ages seed) fun _ => True)
    (hquotes : ∀ seed, AlwaysGives env (g.quotes seed) (IdIn fun _ => True))
    (ht : t = .eight → ∀ seed, AlwaysAnswers env (g.timer seed) (fun c => ∃ q, c = .num q) IsAmount) (fmt : Int → Cell)
    (name : String) (seed start : Int) {step : Int} (hstep : nsPerSec ≤ step)
    (text : Cell → Text) {folder : Path} (so : SetOrder String) (fuel d : Nat) (duration : Int) (delete : Bool) {fs : FS}
    (htree : Tree fs) (hroot : At fs [] .dir) (hne : folder ≠ [])
    (hc : ∀ q t, Below q folder → At fs q (.file t) → q = folder) (hd : DepthBelow fs folder d) (hfuel : d < fuel)
    (hdel : delete = true ∨ Absent fs folder) :
    ∃ c ops c' s', Circus.new env.R name seed start step = .ok c ∧ t.build env n g fmt c = .ok ops c' ∧
      Sys.run env text folder so fuel [ops] duration delete ⟨c', fs⟩ = .ok () s' := by
  obtain ⟨c, hnew⟩ := new_ends_ok env name seed start step
  obtain ⟨ops, c', hbuild⟩ := C137_slides_build hsem n hg hnames hages (fun _ => hquotes) ht fmt hnew
  obtain ⟨s', h⟩ := Slides.C136_slides_run hsem hn hg (fun _ sd x hx m => by
    obtain ⟨cells, x', k1, k2, -⟩ := hquotes sd x hx m
    exact ⟨cells, x', k1, k2, fun _ _ => trivial⟩) ht hstep hnew hbuild (text := text) so fuel d duration delete htree hroot
    hne hc hd hfuel hdel
  exact ⟨c, ops, c', s', hnew, hbuild, h⟩

/-! ### The blog -/

theorem ends_addActivity {g : Blog.Parts (AnyGen σ)} (w : World σ (AnyGen σ)) : Ends (Blog.addActivity env g) w := by
  have key : ∀ q : Rat, q ≠ 0 → CyclicTimer.activity defaultDailyConfig q Blog.day = .ok q := fun q hq =>
    C73_activity_per_cycle defaultDailyConfig q hq (by decide)
  rw [Blog.addActivity]
  refine (ends_seeded _ _).bind fun r1 w1 _ => ?_
  refine (Ends.ofPy (key 3 (by norm_num))).bind fun _ _ _ => ?_
  refine (Ends.ofPy (key 10 (by norm_num))).bind fun _ _ _ => ?_
  refine (Ends.ofPy (key 20 (by norm_num))).bind fun _ _ _ => ?_
  exact (ends_seeded _ _).bind fun _ _ _ => Ends.pure

/-- the activities that `addActivity` makes are the weighted ones -/
theorem activity_weights {g : Blog.Parts (AnyGen σ)} {b : SeqGen} (hg : g.Usual b) {r : GenRef × GenRef}
    (h : Blog.addActivity env g w = .ok r w') :
    ∃ x, Began env w' r.2 (.choice [.num 3, .num 10, .num 20] (some [2/10, 7/10, 1/10]) x) := by
  rw [Blog.addActivity] at h
  obtain ⟨t, w1, h1, h⟩ := Act.bind_eq_ok.1 h
  obtain ⟨x1, w2, h2, h⟩ := Act.bind_eq_ok.1 h
  obtain ⟨e1, rfl⟩ := Act.ofPy_eq_ok.1 h2
  obtain ⟨x2, w3, h3, h⟩ := Act.bind_eq_ok.1 h
  obtain ⟨e2, rfl⟩ := Act.ofPy_eq_ok.1 h3
  obtain ⟨x3, w4, h4, h⟩ := Act.bind_eq_ok.1 h
  obtain ⟨e3, rfl⟩ := Act.ofPy_eq_ok.1 h4
  obtain ⟨a, w5, h5, h⟩ := Act.bind_eq_ok.1 h
  obtain ⟨rfl, rfl⟩ := Act.pure_eq_ok.1 h
  have key : ∀ q : Rat, q ≠ 0 → CyclicTimer.activity defaultDailyConfig q Blog.day = .ok q := fun q hq =>
    C73_activity_per_cycle defaultDailyConfig q hq (by decide)
  rw [key _ (by norm_num)] at e1 e2 e3
  cases e1
  cases e2
  cases e3
  obtain ⟨-, -, seed5, b5⟩ := Shop.after_seeded (env := env) h5
  obtain ⟨x, hx⟩ := hg.choice [.num 3, .num 10, .num 20] (some [2/10, 7/10, 1/10]) seed5
  rw [hx] at b5
  exact ⟨x, b5⟩

theorem ends_addErNetwork {graph : Nat → Rat → Int → List (Nat × Nat)} (hgr : ∀ n q seed, SimpleGraph n (graph n q seed))
    {pop : Nat} {p : Population} {name : String} {degree : Rat} (hp : P[pop]? = some p) (hpos : p.ids ≠ [])
    (hs : Lot env R P T k w) : Ends (addErNetwork env graph pop name degree) w := by
  rw [addErNetwork]
  refine (ends_drawSeed w).bind fun ws w1 h1 => ?_
  have s1 := Hello.lot_drawSeed hs h1
  have hp1 : w1.pops[pop]? = some p := by rw [s1.pops]; exact hp
  refine (ends_getPop hp1).bind fun p' w2 h2 => ?_
  obtain ⟨e, rfl⟩ := getPop_eq_ok.1 h2
  rw [hp1] at e
  cases e
  refine (Ends.ofPy (y := degree / p.ids.length) (by
    rw [erProbability, if_neg fun h => hpos (List.length_eq_zero_iff.1 h)])).bind fun prob w3 h3 => ?_
  obtain ⟨-, rfl⟩ := Act.ofPy_eq_ok.1 h3
  refine (ends_drawSeed _).bind fun seed w4 h4 => ?_
  have s4 := Hello.lot_drawSeed s1 h4
  obtain ⟨values, hv⟩ : ∃ values, erNetwork p.ids (graph p.ids.length prob seed) = .ok values :=
    erNetwork_total (hgr _ _ _).nodes
  refine (Ends.ofPy hv).bind fun values' w5 h5 => ?_
  obtain ⟨h5, rfl⟩ := Act.ofPy_eq_ok.1 h5
  rw [hv] at h5
  cases h5
  refine (ends_createRelationship (by rw [s4.pops]; exact hp)).bind fun i w6 h6 => ?_
  obtain ⟨p', hp', rfl, s6, -⟩ := Hello.lot_createRelationship s4 h6
  have hlen : ∀ s : σ, (paretoGenerate env.R 1 false s values.length).1.length = values.length := fun s => by
    simp [paretoGenerate, env.R.pareto_length]
  have hok : ∀ s : σ, LengthsOk (values.map Prod.fst) (values.map Prod.snd)
      (.list (paretoGenerate env.R 1 false s values.length).1) := fun s => ⟨by simp, by simp [Weights.expand, hlen]⟩
  have hok' : ∀ s : σ, LengthsOk (values.map Prod.snd) (values.map Prod.fst)
      (.list (paretoGenerate env.R 1 false s values.length).1) := fun s => ⟨by simp, by simp [Weights.expand, hlen]⟩
  refine (ends_addRelations (L := []) s6 (by simp) (hok _)).bind fun u7 w7 h7 => ?_
  obtain ⟨L', s7⟩ := Blog.lot_addRelations_list s6 h7
  exact ends_addRelations (L := L') s7 (by rw [List.getElem?_set_self (by simp)]) (hok' _)

/-- the story of scripts 5 and 6 of the blog, after its timer and activities -/
theorem ends_blogStory (hsem : env.sem = AnyGen.sem env.R) {g : Blog.Parts (AnyGen σ)} {b : SeqGen} (hg : g.Usual b)
    {q : Population} (hl : q.ids.length = q.size) (hs : Lot env R [q] [] k w) {r : GenRef × GenRef}
    (ht : ∀ seed, AlwaysAnswers env (g.timer seed) (fun c => ∃ q, c = .num q) IsAmount)
    (h : Blog.addActivity env g w = .ok r w') :
    Ends (Circus.createStory env (Blog.helloStory 0 (some r))) { c with world := w' } := by
  obtain ⟨s1, ⟨seed, b1⟩, -⟩ := Blog.addActivity_lot hg hs h
  obtain ⟨x, b2⟩ := activity_weights hg h
  exact ends_activeStory (c := { c with world := w' }) hl s1 b1 b2 (ht seed)
    (nums_of_list (gives_weighted hsem (by simp) rfl (by norm_num) (by norm_num)) (by simp))

/-- **C137** The construction of an example of the blog never raises, under the same conditions; example 6 needs a person. -/
theorem C137_blog_build (hsem : env.sem = AnyGen.sem env.R) {p : Blog.Post} {n : Nat} (hn : p = .six → 0 < n)
    {g : Blog.Parts (AnyGen σ)} {b : SeqGen} (hg : g.Usual b) (hnames : ∀ seed, AlwaysGives env (g.names seed) fun _ => True)
    (hages : ∀ seed, AlwaysGives env (g.ages seed) fun _ => True)
    (hquotes : p ≠ .three → ∀ seed, AlwaysGives env (g.quotes seed) (IdIn fun _ => True))
    (ht : p = .five ∨ p = .six → ∀ seed, AlwaysAnswers env (g.timer seed) (fun c => ∃ q, c = .num q) IsAmount)
    (fmt : Int → Cell) {name : String} {seed start step : Int} (hnew : Circus.new env.R name seed start step = .ok c) :
    ∃ ops c', p.build env n g fmt c = .ok ops c' := by
  have hlen : (idsFrom b n).length = n := Music.length_idsFrom _ _
  show Ends (p.build env n g fmt) c
  cases p with
  | three =>
    rw [Blog.Post.build, Blog.threePost]
    refine (ends_blogPersons hsem hg hnames hages hnew).bind fun i c1 h1 => ?_
    obtain ⟨rfl, a, y, -, -, -, s1⟩ := Blog.createPersons_lot hsem hg hnew h1
    refine (ends_helloStory hlen s1).bind fun own c2 h2 => ?_
    obtain ⟨rfl, s, -, -, s2, -⟩ := Blog.constant_lot s1 h2
    exact (Ends.onWorld (ends_choiceIn (by rw [s2.pops]; rfl))).bind fun _ _ _ => Ends.pure
  | four =>
    rw [Blog.Post.build, Blog.fourPost]
    refine (ends_blogPersons hsem hg hnames hages hnew).bind fun i c1 h1 => ?_
    obtain ⟨rfl, a, y, -, -, -, s1⟩ := Blog.createPersons_lot hsem hg hnew h1
    refine (Ends.onWorld (ends_addQuotes hsem rfl hlen s1 (hquotes (by simp)))).bind fun x2 c2 h2 => ?_
    obtain ⟨u2, h2', rfl⟩ := onWorld_ok h2
    obtain ⟨L, -, s2⟩ := Blog.addQuotes_lot hsem rfl hlen s1 h2'
    refine (ends_helloStory (c := { c1 with world := u2 }) (by exact hlen) s2).bind fun own c3 h3 => ?_
    obtain ⟨rfl, s, -, -, s3, -⟩ := Blog.constant_lot (c := { c1 with world := u2 }) s2 h3
    refine (Ends.onWorld (ends_relNamed (i := 0) (by rw [s3.pops]; rfl) rfl)).bind fun r4 c4 h4 => ?_
    obtain ⟨u4, h4', rfl⟩ := onWorld_ok h4
    obtain ⟨rfl, -⟩ := Blog.relNamed_lot rfl s3 h4'
    exact (Ends.onWorld (ends_choiceIn (by show c3.world.pops[0]? = _; rw [s3.pops]; rfl))).bind fun _ _ _ => Ends.pure
  | five =>
    rw [Blog.Post.build, Blog.fivePost]
    refine (ends_blogPersons hsem hg hnames hages hnew).bind fun i c1 h1 => ?_
    obtain ⟨rfl, a, y, -, -, -, s1⟩ := Blog.createPersons_lot hsem hg hnew h1
    refine (Ends.onWorld (ends_addQuotes hsem rfl hlen s1 (hquotes (by simp)))).bind fun x2 c2 h2 => ?_
    obtain ⟨u2, h2', rfl⟩ := onWorld_ok h2
    obtain ⟨L, -, s2⟩ := Blog.addQuotes_lot hsem rfl hlen s1 h2'
    refine (Ends.onWorld (ends_addActivity _)).bind fun r5 c5 h5 => ?_
    obtain ⟨u5, h5', rfl⟩ := onWorld_ok h5
    refine (ends_blogStory (c := c1) hsem hg (by exact hlen) s2 (ht (.inl rfl)) h5').bind fun own c3 h3 => ?_
    obtain ⟨s5, ⟨sd, b5⟩, -⟩ := Blog.addActivity_lot hg s2 h5'
    obtain ⟨x, b6⟩ := activity_weights hg h5'
    obtain ⟨rfl, s, -, -, s3, -⟩ := Blog.active_lot (c := { c1 with world := u5 }) hsem s5 b5 b6 h3
    refine (Ends.onWorld (ends_relNamed (i := 0) (by rw [s3.pops]; rfl) rfl)).bind fun r4 c4 h4 => ?_
    obtain ⟨u4, h4', rfl⟩ := onWorld_ok h4
    obtain ⟨rfl, -⟩ := Blog.relNamed_lot rfl s3 h4'
    exact (Ends.onWorld (ends_choiceIn (by show c3.world.pops[0]? = _; rw [s3.pops]; rfl))).bind fun _ _ _ => Ends.pure
  | six =>
    rw [Blog.Post.build, Blog.sixPost]
    refine (ends_blogPersons hsem hg hnames hages hnew).bind fun i c1 h1 => ?_
    obtain ⟨rfl, a, y, -, -, -, s1⟩ := Blog.createPersons_lot hsem hg hnew h1
    refine (Ends.onWorld (ends_addQuotes hsem rfl hlen s1 (hquotes (by simp)))).bind fun x2 c2 h2 => ?_
    obtain ⟨u2, h2', rfl⟩ := onWorld_ok h2
    obtain ⟨L, -, s2⟩ := Blog.addQuotes_lot hsem rfl hlen s1 h2'
    refine (Ends.onWorld (ends_addErNetwork (P := [_]) hg.graph rfl (fun e => ?_) s2)).bind fun x7 c7 h7 => ?_
    · have e : idsFrom b n = [] := e
      have := hn rfl
      rw [e] at hlen
      simp at hlen
      omega
    obtain ⟨u7, h7', rfl⟩ := onWorld_ok h7
    obtain ⟨F, -, s7⟩ := Blog.er_lot (P := [_]) hg.graph rfl s2 h7'
    refine (Ends.onWorld (ends_addActivity _)).bind fun r5 c5 h5 => ?_
    obtain ⟨u5, h5', rfl⟩ := onWorld_ok h5
    refine (ends_blogStory (c := c1) hsem hg (by exact hlen) s7 (ht (.inr rfl)) h5').bind fun own c3 h3 => ?_
    obtain ⟨s5, ⟨sd, b5⟩, -⟩ := Blog.addActivity_lot hg s7 h5'
    obtain ⟨x, b6⟩ := activity_weights hg h5'
    obtain ⟨rfl, s, -, -, s3, -⟩ := Blog.active_lot (c := { c1 with world := u5 }) hsem s5 b5 b6 h3
    refine (Ends.onWorld (ends_relNamed (i := 0) (by rw [s3.pops]; rfl) rfl)).bind fun r4 c4 h4 => ?_
    obtain ⟨u4, h4', rfl⟩ := onWorld_ok h4
    obtain ⟨rfl, -⟩ := Blog.relNamed_lot rfl s3 h4'
    exact (Ends.onWorld (ends_relNamed (i := 1) (by show c3.world.pops[0]? = _; rw [s3.pops]; rfl) rfl)).bind
      fun _ _ _ => Ends.pure

/-- **C137** An example of the blog (3 to 5) never raises, from the creation of the circus to the end of its run. For
example 6 see `C137_blog_build` and `C132_blog_runs`: its run may raise when a person has no friend. -/
theorem C137_blog (hsem : env.sem = AnyGen.sem env.R) {p : Blog.Post} (h6 : p ≠ .six) {n : Nat} (hn : 0 < n)
    {g : Blog.Parts (AnyGen σ)} {b : SeqGen} (hg : g.Usual b) (hnames : ∀ seed, AlwaysGives env (g.names seed) fun _ => True)
    (hages : ∀ seed, AlwaysGives env (g.ages seed) fun _ => True)
    (hquotes : p ≠ .three → ∀ seed, AlwaysGives env (g.quotes seed) (IdIn fun _ => True))
    (ht : ∀ seed, AlwaysAnswers env (g.timer seed) (fun c => ∃ q, c = .num q) IsAmount) (fmt : Int → Cell)
    (name : String) (seed start : Int) {step : Int} (hstep : nsPerSec ≤ step)
    (text : Cell → Text) {folder : Path} (so : SetOrder String) (fuel d : Nat) (duration : Int) (delete : Bool) {fs : FS}
    (htree : Tree fs) (hroot : At fs [] .dir) (hne : folder ≠ [])
    (hc : ∀ q t, Below q folder → At fs q (.file t) → q = folder) (hd : DepthBelow fs folder d) (hfuel : d < fuel)
    (hdel : delete = true ∨ Absent fs folder) :
    ∃ c ops c' s', Circus.new env.R name seed start step = .ok c ∧ p.build env n g fmt c = .ok ops c' ∧
      Sys.run env text folder so fuel [ops] duration delete ⟨c', fs⟩ = .ok () s' := by
  obtain ⟨c, hnew⟩ := new_ends_ok env name seed start step
  obtain ⟨ops, c', hbuild⟩ := C137_blog_build hsem (fun _ => hn) hg hnames hages hquotes (fun _ => ht) fmt hnew
  obtain ⟨s', h⟩ := Blog.C132_blog_runs hsem hn hg ht hstep hnew hbuild (fun e => absurd e h6) (text := text) so fuel d
    duration delete htree hroot hne hc hd hfuel hdel
  exact ⟨c, ops, c', s', hnew, hbuild, h⟩

/-- **C137** Example 6 of the blog cannot be built without persons: the average degree is divided by their number. -/
theorem C137_six_nobody (hsem : env.sem = AnyGen.sem env.R) {g : Blog.Parts (AnyGen σ)} {b : SeqGen} (hg : g.Usual b)
    (fmt : Int → Cell) {name : String} {seed start step : Int} (hnew : Circus.new env.R name seed start step = .ok c)
    (ops : List (Op (World σ (AnyGen σ)))) (c' : Circus σ (AnyGen σ)) : Blog.Post.six.build env 0 g fmt c ≠ .ok ops c' := by
  intro h
  rw [Blog.Post.build, Blog.sixPost] at h
  obtain ⟨i, c1, h1, h⟩ := Act.bind_eq_ok.1 h
  obtain ⟨rfl, a, y, -, -, -, s1⟩ := Blog.createPersons_lot hsem hg hnew h1
  obtain ⟨x2, c2, h2, h⟩ := Act.bind_eq_ok.1 h
  obtain ⟨u2, h2', rfl⟩ := onWorld_ok h2
  obtain ⟨L, -, s2⟩ := Blog.addQuotes_lot hsem rfl (Music.length_idsFrom _ _) s1 h2'
  obtain ⟨x3, c3, h3, h⟩ := Act.bind_eq_ok.1 h
  obtain ⟨u3, h3', rfl⟩ := onWorld_ok h3
  rw [addErNetwork] at h3'
  obtain ⟨ws, w1, k1, h3'⟩ := Act.bind_eq_ok.1 h3'
  have s3 := Hello.lot_drawSeed (w := u2) s2 k1
  obtain ⟨p, w2, k2, h3'⟩ := Act.bind_eq_ok.1 h3'
  obtain ⟨kp, rfl⟩ := getPop_eq_ok.1 k2
  rw [s3.pops] at kp
  cases kp
  obtain ⟨prob, w3, k3, -⟩ := Act.bind_eq_ok.1 h3'
  obtain ⟨ke, -⟩ := Act.ofPy_eq_ok.1 k3
  rw [erProbability, if_pos (by rfl)] at ke
  cases ke

/-! ### Non-vacuity -/

theorem any {a : AnyGen σ} {V : Cell → Prop} (h : AlwaysGives env a V) : AlwaysGives env a fun _ => True := by
  intro x hx n
  obtain ⟨cells, x', k1, k2, -⟩ := h x hx n
  exact ⟨cells, x', k1, k2, fun _ _ => trivial⟩

theorem anyId {a : AnyGen σ} {V : Val → Prop} (h : AlwaysGives env a (IdIn V)) : AlwaysGives env a (IdIn fun _ => True) := by
  intro x hx n
  obtain ⟨cells, x', k1, k2, k3⟩ := h x hx n
  refine ⟨cells, x', k1, k2, fun c hc => ?_⟩
  obtain ⟨v, e, -⟩ := k3 c hc
  exact ⟨v, e, trivial⟩

/-- any script of the presentation, with any number of persons, any seed and any duration -/
example (t : Slides.Talk) (n : Nat) (seed duration : Int) : ∃ c ops c' s',
    Circus.new exEnv.R "example" seed 0 (3600 * nsPerSec) = .ok c ∧ t.build exEnv (n + 1) Blog.exParts Blog.exFmt c = .ok ops c' ∧
      Sys.run exEnv exFmt ["logs"] (SetOrder.dedup String) 1 [ops] duration false ⟨c', [([], .dir)]⟩ = .ok () s' :=
  C137_slides (env := exEnv) rfl (fun _ => by omega) Blog.exUsual (fun _ => any (gives_choice rfl (by simp)))
    (fun _ => any (gives_uniform rfl)) (fun _ => anyId (gives_choice rfl (by simp))) (fun _ _ => answers_cyclic rfl _) _ _ _ _
    (by decide) _ _ _ 0 _ _ ⟨by decide +kernel, by simp [At]⟩
    (by simp [At]) (by simp) (by simp [At]) (by simp [DepthBelow, At]) (by omega) (.inr (by simp [Absent, At]))

/-- likewise for those of the blog -/
example (p : Blog.Post) (hp : p ≠ .six) (n : Nat) (seed duration : Int) : ∃ c ops c' s',
    Circus.new exEnv.R "example" seed 0 (3600 * nsPerSec) = .ok c ∧ p.build exEnv (n + 1) Blog.exParts Blog.exFmt c = .ok ops c' ∧
      Sys.run exEnv exFmt ["logs"] (SetOrder.dedup String) 1 [ops] duration false ⟨c', [([], .dir)]⟩ = .ok () s' :=
  C137_blog (env := exEnv) rfl hp (by omega) Blog.exUsual (fun _ => any (gives_choice rfl (by simp)))
    (fun _ => any (gives_uniform rfl)) (fun _ _ => anyId (gives_choice rfl (by simp))) (fun _ => answers_cyclic rfl _) _ _ _ _
    (by decide) _ _ _ 0 _ _ ⟨by decide +kernel, by simp [At]⟩
    (by simp [At]) (by simp) (by simp [At]) (by simp [DepthBelow, At]) (by omega) (.inr (by simp [Absent, At]))

end Builds
end Trumania
