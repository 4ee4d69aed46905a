import Verif.Spec.Firsts
import Verif.Props.Dataframe
import Verif.Props.ExampleBuilds

/-!
# C143: the first two examples of the blog and of the presentation
-/

namespace Trumania
namespace Firsts
open Spec World Circus Cdr
open Shop (onWorld_ok)
open Hello (Lot)
open Slides (MayGive)
open Builds (Ends)
variable {σ : Type} {env : Env σ (AnyGen σ)} {w w' : World σ (AnyGen σ)} {c c' : Circus σ (AnyGen σ)}

/-! ### Where the names and the ages come from -/

/-- a value of a new attribute was given by its generator -/
theorem createDrawn_given {pop : Nat} {name : String} {r : GenRef} {x : AnyGen σ} {p : Population} {u : Unit}
    (hp : w.pops[pop]? = some p) (hl : p.ids.length = p.size) (hb : Began env w r x)
    (h : Snd.createDrawn env pop name r w = .ok u w') : ∃ a, (∀ i v, Holds a i v → MayGive env x v) ∧
      w'.pops[pop]? = some { p with attributes := p.attributes.set name a } := by
  obtain ⟨q, a, values, hq, hv, ha, e⟩ := Snd.createDrawn_attrs h
  rw [hp] at hq
  cases hq
  refine ⟨a, fun i v hi => ?_, by rw [e]; exact List.getElem?_set_self (List.getElem?_eq_some_iff.1 hp).1⟩
  have hm := ((new_holds ha fun h0 => List.length_eq_zero_iff.1 (hl.trans h0)).2.1 i v hi).2
  rcases hv with ⟨-, rfl⟩ | ⟨w1, hg⟩
  · cases hm
  · obtain ⟨j, y, rfl, hy, hd⟩ := hb
    obtain ⟨y', y'', e1, e2, -⟩ := generate_ref_ok.1 hg
    rw [hy] at e1
    cases e1
    exact ⟨y, _, values, y'', hd, e2, hm⟩

/-- the persons of the blog -/
theorem blog_given (hsem : env.sem = AnyGen.sem env.R) {n i : Nat} {g : Blog.Parts (AnyGen σ)} {b : SeqGen}
    (hg : g.Usual b) {name : String} {seed start step : Int} (hnew : Circus.new env.R name seed start step = .ok c)
    (h : Blog.createPersons env n g c = .ok i c') : ∃ q a y, c'.world.pops[i]? = some q ∧
      q.attributes.get? "NAME" = some a ∧ q.attributes.get? "AGE" = some y ∧
      (∃ sd, ∀ i v, Holds a i v → MayGive env (g.names sd) v) ∧ ∃ sd, ∀ i v, Holds y i v → MayGive env (g.ages sd) v := by
  rw [Blog.createPersons] at h
  obtain ⟨r1, c1, h1, h⟩ := Act.bind_eq_ok.1 h
  obtain ⟨u1, h1', rfl⟩ := onWorld_ok h1
  obtain ⟨a1, rfl, g1⟩ := Shop.after_addGenerator (env := env) h1'
  have hgen : u1.gens[c.world.gens.length]? = some (.seq b) := by
    rw [g1, List.getElem?_append_right (le_refl _), Nat.sub_self, hg.persons]
    rfl
  obtain ⟨r2, c2, h2, h⟩ := Act.bind_eq_ok.1 h
  obtain ⟨u2, h2', rfl⟩ := onWorld_ok h2
  obtain ⟨⟨s2, b2⟩, -, -⟩ := seeded_began h2'
  have hgen2 : u2.gens[c.world.gens.length]? = some (.seq b) := Builds.seeded_kept h2' hgen
  obtain ⟨r3, c3, h3, h⟩ := Act.bind_eq_ok.1 h
  obtain ⟨u3, h3', rfl⟩ := onWorld_ok h3
  obtain ⟨⟨s3, b3⟩, k3, -⟩ := seeded_began h3'
  have hgen3 : u3.gens[c.world.gens.length]? = some (.seq b) := Builds.seeded_kept h3' hgen2
  replace b2 := k3 b2
  have hnone : ({ c with world := u3 } : Circus σ (AnyGen σ)).populations.get? "person" = none := Builds.new_named hnew _
  obtain ⟨pop, c4, h4, h⟩ := Act.bind_eq_ok.1 h
  obtain ⟨p, hp, hl⟩ := Builds.createPopulation_sized (c := { c with world := u3 }) hsem hnone hgen3 h4
  replace b2 := Builds.createPopulation_began (c := { c with world := u3 }) b2 h4
  replace b3 := Builds.createPopulation_began (c := { c with world := u3 }) b3 h4
  obtain ⟨x5, c5, h5, h⟩ := Act.bind_eq_ok.1 h
  obtain ⟨u5, h5', rfl⟩ := onWorld_ok h5
  obtain ⟨a, ha, hp5⟩ := createDrawn_given hp hl b3 h5'
  obtain ⟨x6, c6, h6, h⟩ := Act.bind_eq_ok.1 h
  obtain ⟨u6, h6', rfl⟩ := onWorld_ok h6
  obtain ⟨y, hy, hp6⟩ := createDrawn_given (w := u5) hp5 hl ((createDrawn_began h5').1 b2) h6'
  obtain ⟨rfl, rfl⟩ := Act.pure_eq_ok.1 h
  exact ⟨_, a, y, hp6, by simp [Dict.get?_set], by simp [Dict.get?_set], ⟨s3, ha⟩, s2, hy⟩

/-- the persons of the presentation -/
theorem slides_given (hsem : env.sem = AnyGen.sem env.R) {n i : Nat} {g : Blog.Parts (AnyGen σ)} {b : SeqGen}
    (hg : g.Usual b) {name : String} {seed start step : Int} (hnew : Circus.new env.R name seed start step = .ok c)
    (h : Slides.createPersons env n g c = .ok i c') : ∃ q a y, c'.world.pops[i]? = some q ∧
      q.attributes.get? "NAME" = some a ∧ q.attributes.get? "age" = some y ∧
      (∃ sd, ∀ i v, Holds a i v → MayGive env (g.names sd) v) ∧ ∃ sd, ∀ i v, Holds y i v → MayGive env (g.ages sd) v := by
  rw [Slides.createPersons] at h
  obtain ⟨r1, c1, h1, h⟩ := Act.bind_eq_ok.1 h
  obtain ⟨u1, h1', rfl⟩ := onWorld_ok h1
  obtain ⟨a1, rfl, g1⟩ := Shop.after_addGenerator (env := env) h1'
  have hgen : u1.gens[c.world.gens.length]? = some (.seq b) := by
    rw [g1, List.getElem?_append_right (le_refl _), Nat.sub_self, hg.persons]
    rfl
  have hnone : ({ c with world := u1 } : Circus σ (AnyGen σ)).populations.get? "person" = none := Builds.new_named hnew _
  obtain ⟨pop, c4, h4, h⟩ := Act.bind_eq_ok.1 h
  obtain ⟨p, hp, hl⟩ := Builds.createPopulation_sized (c := { c with world := u1 }) hsem hnone hgen h4
  obtain ⟨r2, c2, h2, h⟩ := Act.bind_eq_ok.1 h
  obtain ⟨u2, h2', rfl⟩ := onWorld_ok h2
  obtain ⟨⟨s2, b2⟩, -, -⟩ := seeded_began h2'
  have hp2 : u2.pops[pop]? = some p := by rw [Builds.seeded_pops h2']; exact hp
  obtain ⟨x5, c5, h5, h⟩ := Act.bind_eq_ok.1 h
  obtain ⟨u5, h5', rfl⟩ := onWorld_ok h5
  obtain ⟨a, ha, hp5⟩ := createDrawn_given (w := u2) hp2 hl b2 h5'
  obtain ⟨r3, c3, h3, h⟩ := Act.bind_eq_ok.1 h
  obtain ⟨u3, h3', rfl⟩ := onWorld_ok h3
  obtain ⟨⟨s3, b3⟩, -, -⟩ := seeded_began h3'
  have hp3 : u3.pops[pop]? = some { p with attributes := p.attributes.set "NAME" a } := by
    rw [Builds.seeded_pops h3']; exact hp5
  obtain ⟨x6, c6, h6, h⟩ := Act.bind_eq_ok.1 h
  obtain ⟨u6, h6', rfl⟩ := onWorld_ok h6
  obtain ⟨y, hy, hp6⟩ := createDrawn_given (w := u3) hp3 hl b3 h6'
  obtain ⟨rfl, rfl⟩ := Act.pure_eq_ok.1 h
  exact ⟨_, a, y, hp6, by simp [Dict.get?_set], by simp [Dict.get?_set], ⟨s2, ha⟩, s3, hy⟩

/-! ### The table -/

/-- the table of a population of persons -/
theorem shown_ok {g : Blog.Parts (AnyGen σ)} {age : String} {ids : List Val} {m : Nat}
    {a y : Attribute} (hp : w.pops[0]? = some ⟨ids, m, [("NAME", a), (age, y)], []⟩)
    (hwf : Population.WF ⟨ids, m, [("NAME", a), (age, y)], []⟩)
    (ha : ∀ i ∈ ids, ∃ x, Holds a i x) (hy : ∀ i ∈ ids, ∃ x, Holds y i x)
    (ga : ∃ sd, ∀ i v, Holds a i v → MayGive env (g.names sd) v)
    (gy : ∃ sd, ∀ i v, Holds y i v → MayGive env (g.ages sd) v) :
    ∃ f, shown 0 w = .ok f w ∧ Shows env g age ids w f := by
  obtain ⟨f, h1, h2, h3, h4, h5⟩ := C95_to_dataframe hwf (by
    intro name x hx i hi
    rw [attributeOf] at hx
    simp only [List.mem_cons, Prod.mk.injEq, List.not_mem_nil, or_false] at hx
    rcases hx with ⟨rfl, rfl⟩ | ⟨rfl, rfl⟩
    · exact ha i hi
    · exact hy i hi)
  have n1 : attributeOf (⟨ids, m, [("NAME", a), (age, y)], []⟩ : Population) "NAME" a := by simp [attributeOf]
  have n2 : attributeOf (⟨ids, m, [("NAME", a), (age, y)], []⟩ : Population) age y := by simp [attributeOf]
  refine ⟨head 10 f, ?_, h3, fun r hr => h4 r (List.mem_of_mem_take hr), ?_, fun r hr => ?_, fun r hr => ?_, fun r hr => ?_⟩
  · rw [shown, Act.bind_ok (getPop_eq_ok.2 ⟨hp, rfl⟩), Act.bind_ok (Act.ofPy_ok h1 w)]
    rfl
  · change f.index = ids at h2
    rw [← h2]
    simp [head, Frame.index, List.map_take]
  · have hr := List.mem_of_mem_take hr
    exact ⟨⟨_, a, hp, n1, h5 _ _ n1 r hr⟩, ⟨_, y, hp, n2, h5 _ _ n2 r hr⟩⟩
  · obtain ⟨sd, ga⟩ := ga
    exact ⟨sd, ga _ _ (h5 _ _ n1 r (List.mem_of_mem_take hr))⟩
  · obtain ⟨sd, gy⟩ := gy
    exact ⟨sd, gy _ _ (h5 _ _ n2 r (List.mem_of_mem_take hr))⟩

/-- **C143** The first example of the blog never raises, if the generators of names and of ages always give, and shows the
first ten persons with their names and their ages. -/
theorem C143_blog_one (hsem : env.sem = AnyGen.sem env.R) (n : Nat) {g : Blog.Parts (AnyGen σ)} {b : SeqGen}
    (hg : g.Usual b) (hnames : ∀ seed, AlwaysGives env (g.names seed) fun _ => True)
    (hages : ∀ seed, AlwaysGives env (g.ages seed) fun _ => True) (name : String) (seed start step : Int) :
    ∃ c f c', Circus.new env.R name seed start step = .ok c ∧ blogOne env n g c = .ok f c' ∧
      Shows env g "AGE" (idsFrom b n) c'.world f ∧ c'.world.pops.length = 1 ∧ c'.world.stories = [] := by
  obtain ⟨c, hnew⟩ := Builds.new_ends_ok env name seed start step
  obtain ⟨i, c1, h1⟩ := Builds.ends_blogPersons (n := n) hsem hg hnames hages hnew
  obtain ⟨rfl, a, y, ha, -, hy, s1⟩ := Blog.createPersons_lot hsem hg hnew h1
  obtain ⟨q, a', y', hq, e1, e2, ga, gy⟩ := blog_given hsem hg hnew h1
  have hp : c1.world.pops[0]? = some ⟨idsFrom b n, n, [("NAME", a), ("AGE", y)], []⟩ := by rw [s1.pops]; rfl
  rw [hp] at hq
  cases hq
  cases e1
  cases e2
  obtain ⟨f, h2, hf⟩ := shown_ok hp (s1.wf _ (by simp)) ha hy ga gy
  refine ⟨c, f, c1, hnew, ?_, hf, by rw [s1.pops]; rfl, s1.stories⟩
  rw [blogOne, Act.bind_ok h1, Circus.onWorld, h2]

/-! ### Runs without stories -/

theorem idle_steps {text : Cell → Text} {folder : Path} (n : Nat) (c : Circus σ (AnyGen σ)) (fs : FS) :
    ∃ w', Sys.runSteps env text folder [] n ⟨c, fs⟩ = .ok () ⟨{ c with world := w' }, fs⟩ ∧
      w'.clock.current = c.world.clock.current + n * c.world.clock.step ∧ w'.clock.step = c.world.clock.step ∧
      w'.pops = c.world.pops ∧ w'.stories = c.world.stories := by
  induction n generalizing c with
  | zero => exact ⟨c.world, rfl, by simp, rfl, rfl, rfl⟩
  | succ n ih =>
    obtain ⟨w', h1, h2, h3, h4, h5⟩ := ih { c with world := World.tickClock env c.world }
    refine ⟨w', ?_, ?_, h3, h4, h5⟩
    · rw [Sys.runSteps]
      exact h1
    · rw [h2]
      show c.world.clock.current + c.world.clock.step + n * c.world.clock.step = _
      push_cast
      ring

/-- a run without stories -/
theorem idle_run (text : Cell → Text) {folder : Path} (so : SetOrder String) {fuel d : Nat} {duration : Int}
    {fs : FS} (hstep : 0 < c.world.clock.step) (hdur : 0 ≤ duration) (ht : Tree fs) (hd : DepthBelow fs folder d)
    (hfuel : d < fuel) : ∃ total w' fs', c.world.clock.nIterations duration = .ok (total : Nat) ∧
      Sys.run env text folder so fuel [] duration true ⟨c, fs⟩ = .ok () ⟨{ c with world := w' }, fs'⟩ ∧
      Idle folder total c.world fs w' fs' := by
  obtain ⟨m, h1, h2, -⟩ := C09_n_iterations c.world.clock duration hstep hdur
  obtain ⟨w', k1, k2, -, k4, k5⟩ := idle_steps (env := env) (text := text) (folder := folder) m.toNat c
    (FS.without fs folder)
  refine ⟨m.toNat, w', FS.without fs folder, by rw [Int.toNat_of_nonneg h2]; exact h1, ?_,
    fun q n => FS.mem_without, k2, k4, k5⟩
  rw [Sys.run_eq (s := ⟨c, fs⟩) h1 ht (fun r m hm => Nat.lt_of_le_of_lt (hd r m hm) hfuel) (by omega) (.inl rfl)]
  exact k1

/-- **C143** The first example of the presentation, a circus with nothing in it, runs to the end: it writes no log, and only
the date changes. -/
theorem C143_slide_one (text : Cell → Text) {folder : Path} (so : SetOrder String) {fuel d : Nat} {duration : Int} {fs : FS}
    (hdur : 0 ≤ duration) (ht : Tree fs) (hd : DepthBelow fs folder d) (hfuel : d < fuel) (name : String)
    (seed start : Int) {step : Int} (hstep : 0 < step) :
    ∃ (c c' : Circus σ (AnyGen σ)) (fs' : FS) (total : Nat), Circus.new env.R name seed start step = .ok c ∧
      slideOne env text folder so fuel duration ⟨c, fs⟩ = .ok () ⟨c', fs'⟩ ∧
      duration ≤ total * step ∧ (∀ m : Nat, duration ≤ m * step → total ≤ m) ∧
      Idle folder total c.world fs c'.world fs' ∧ c.world.clock.current = start ∧ c'.world.pops = [] ∧
      c'.world.stories = [] := by
  obtain ⟨c, hnew⟩ := Builds.new_ends_ok env name seed start step
  obtain ⟨s0, -, -, d1, d2⟩ := Shop.new_site (env := env) hnew
  obtain ⟨total, w', fs', h1, h2, h3⟩ := idle_run (env := env) (c := c) text so (by rw [d2]; exact hstep) hdur ht hd hfuel
  obtain ⟨m, q1, q2, q3, q4⟩ := C09_n_iterations c.world.clock duration (by rw [d2]; exact hstep) hdur
  rw [h1] at q1
  cases q1
  rw [d2] at q3 q4
  exact ⟨c, { c with world := w' }, fs', total, hnew, h2, q3, fun m hm => by exact_mod_cast q4 m hm, h3, d1,
    h3.pops.trans s0.stage.pops, h3.stories.trans (List.map_eq_nil_iff.1 s0.stage.stories)⟩

/-- **C143** The second example of the presentation never raises, if the generators of names and of ages always give: it runs
for its duration without a log, and shows after it the first ten persons with their names and their ages, the same as before
the run. -/
theorem C143_slide_two (hsem : env.sem = AnyGen.sem env.R) (n : Nat) {g : Blog.Parts (AnyGen σ)} {b : SeqGen}
    (hg : g.Usual b) (hnames : ∀ seed, AlwaysGives env (g.names seed) fun _ => True)
    (hages : ∀ seed, AlwaysGives env (g.ages seed) fun _ => True) (text : Cell → Text) {folder : Path}
    (so : SetOrder String) {fuel d : Nat} {duration : Int} {fs : FS} (hdur : 0 ≤ duration) (ht : Tree fs)
    (hd : DepthBelow fs folder d) (hfuel : d < fuel) (name : String) (seed start : Int) {step : Int} (hstep : 0 < step) :
    ∃ c c1 c' f fs' total, Circus.new env.R name seed start step = .ok c ∧ Slides.createPersons env n g c = .ok 0 c1 ∧
      slideTwo env n g text folder so fuel duration ⟨c, fs⟩ = .ok f ⟨c', fs'⟩ ∧
      Shows env g "age" (idsFrom b n) c1.world f ∧ Shows env g "age" (idsFrom b n) c'.world f ∧
      Idle folder total c1.world fs c'.world fs' := by
  obtain ⟨c, hnew⟩ := Builds.new_ends_ok env name seed start step
  obtain ⟨i, c1, h1⟩ := Builds.ends_slidePersons (n := n) hsem hg hnames hages hnew
  obtain ⟨rfl, a, y, ha, hy, s1⟩ := Slides.createPersons_lot hsem hg hnew h1
  obtain ⟨q, a', y', hq, e1, e2, ga, gy⟩ := slides_given hsem hg hnew h1
  have hp : c1.world.pops[0]? = some ⟨idsFrom b n, n, [("NAME", a), ("age", y)], []⟩ := by rw [s1.pops]; rfl
  rw [hp] at hq
  cases hq
  cases e1
  cases e2
  have hwf := s1.wf _ (.head _)
  obtain ⟨total, w', fs', -, h2, h3⟩ := idle_run (env := env) (c := c1) text so
    (by rw [s1.clock.2]; exact hstep) hdur ht hd hfuel
  have hp' : w'.pops[0]? = some ⟨idsFrom b n, n, [("NAME", a), ("age", y)], []⟩ := by rw [h3.pops]; exact hp
  obtain ⟨f, k1, hf⟩ := shown_ok (w := w') hp' hwf ha hy ga gy
  refine ⟨c, c1, { c1 with world := w' }, f, fs', total, hnew, h1, ?_, ?_, hf, h3⟩
  · have e1 : onCircus (Slides.createPersons env n g) ⟨c, fs⟩ = .ok 0 ⟨c1, fs⟩ := by rw [onCircus, h1]
    rw [slideTwo, Act.bind_ok e1, Act.bind_ok h2, onCircus, Circus.onWorld, k1]
  · refine ⟨hf.cols, hf.rect, hf.lines, fun r hr => ?_, hf.names, hf.ages⟩
    have := hf.values r hr
    rw [ValueOf, ValueOf, h3.pops] at this
    exact this

/-! ### Hello -/

/-- the second example of the blog has the operations of the third one of the presentation -/
def scene (fmt : Int → Cell) : Slides.Scene := ⟨.three, .ref 0, .ref 0, fmt⟩

/-- what the second example of the blog builds -/
theorem two_built (hsem : env.sem = AnyGen.sem env.R) {n : Nat} {g : Blog.Parts (AnyGen σ)} {b : SeqGen} (hg : g.Usual b)
    {fmt : Int → Cell} {name : String} {seed start step : Int} (hstep : 0 ≤ step)
    (hnew : Circus.new env.R name seed start step = .ok c) {ops : List (Op (World σ (AnyGen σ)))}
    (h : blogTwo env n g fmt c = .ok ops c') : c'.world.clock.current = start ∧ c'.world.clock.step = step ∧
      [ops] = (scene fmt).chains env ∧ Slides.Ready env g.quotes (scene fmt) (idsFrom b n) c'.world ∧
      Beats c'.world 0 1 (idsFrom b n) ∧ AllWait c'.world 0 1 ∧
      ∃ q x, c'.world.pops = [q] ∧ c'.world.rels = [] ∧ c'.world.stories = [x] ∧ q.ids = idsFrom b n ∧
        Population.WF q ∧ x.idField = "PERSON_ID" ∧ Begins x (idsFrom b n) (fun _ => False) ∧
        x.timerGen = .constant (.num 1) := by
  rw [blogTwo] at h
  obtain ⟨i, c1, h1, h⟩ := Act.bind_eq_ok.1 h
  obtain ⟨rfl, a, y, -, -, -, s1⟩ := Blog.createPersons_lot hsem hg hnew h1
  obtain ⟨own, c2, h2, h⟩ := Act.bind_eq_ok.1 h
  obtain ⟨rfl, s, e1, e2, s2, hb, hq, hbe, hcon⟩ := Blog.constant_lot s1 h2
  obtain ⟨rfl, rfl⟩ := Act.pure_eq_ok.1 h
  have hrels : c2.world.rels = [] := List.forall₂_nil_right_iff.1 s2.rels
  refine ⟨s2.clock.1, s2.clock.2, rfl, ⟨by rw [s2.pops]; exact s2.wf, ⟨_, by rw [s2.pops]; rfl, rfl⟩,
    ⟨s, by rw [s2.stories]; rfl, e1, e2⟩, fun i hi => absurd hi (List.not_mem_nil), by simp [scene], by simp [scene],
    by simp [scene], by rw [s2.clock.2]; exact hstep⟩, hb, hq, _, s, s2.pops, hrels, s2.stories, rfl, s2.wf _ (.head _), e1,
    hbe, hcon⟩

/-- the circus of the second example of the blog is well-formed, and its operations safe -/
theorem two_safe {q : Population} {x : Story σ} {ids : List Val} {fmt : Int → Cell} (hids : q.ids = ids)
    (hp : w.pops = [q]) (hr : w.rels = []) (hst : w.stories = [x]) (hwf : Population.WF q) (hf : x.idField = "PERSON_ID")
    (hbe : Begins x ids fun _ => False) (hcon : x.timerGen = .constant (.num 1)) (hstep : nsPerSec ≤ w.clock.step) :
    Fits env (Slides.signature env (scene fmt) ids q w) w ∧
      List.Forall₂ (SafeStory env (Slides.signature env (scene fmt) ids q w)) (Slides.signature env (scene fmt) ids q w).stories
        ((scene fmt).chains env) := by
  refine ⟨⟨rfl, (gens_fit rfl).1, (gens_fit rfl).2, by rw [hr]; exact .nil, by rw [hp]; exact .cons (pop_fits q) .nil, ?_⟩, ?_⟩
  · rw [hst]
    refine .cons ?_ .nil
    rw [← hf]
    exact story_fits (by rw [← hids]; exact hwf.ids) hbe (.inl ⟨_, hcon⟩) (by rw [hcon]; exact .constSeries (.inr ⟨1, rfl⟩))
  · refine .cons (C101_set_operations rfl ⟨_, .cons (.timestamp (P := fun _ => True) (fun _ => trivial) (fun _ => hstep)
      (by simp [Ctx.names])) (.cons (.randomValues (P := fun _ => True) (.constSize trivial) (by simp [Ctx.names]))
      (.cons (.fieldLogger (by simp [scene, Slides.Talk.cols])) .nil))⟩) .nil

/-- **C143** The second example of the blog never raises, from the creation of the circus to the end of its run, if the
generators of names and of ages always give. Its log `hello` has the records of all the persons, in order, at every second
step of the clock; each tells the id of the person, a date in the step, and "hello world". There is no other log. -/
theorem C143_blog_two (hsem : env.sem = AnyGen.sem env.R) (n : Nat) {g : Blog.Parts (AnyGen σ)} {b : SeqGen}
    (hg : g.Usual b) (hnames : ∀ seed, AlwaysGives env (g.names seed) fun _ => True)
    (hages : ∀ seed, AlwaysGives env (g.ages seed) fun _ => True) (fmt : Int → Cell) (name : String) (seed start : Int)
    {step : Int} (hstep : nsPerSec ≤ step) (text : Cell → Text) {folder : Path} (so : SetOrder String) {fuel d : Nat}
    {duration : Int} (hdur : 0 ≤ duration) (delete : Bool) {fs : FS} (ht : Tree fs) (hroot : At fs [] .dir)
    (hne : folder ≠ []) (hc : ∀ q t, Below q folder → At fs q (.file t) → q = folder) (hd : DepthBelow fs folder d)
    (hfuel : d < fuel) (hdel : delete = true ∨ Absent fs folder) :
    ∃ c ops c' s' events fs0, ∃ total : Nat, Circus.new env.R name seed start step = .ok c ∧
      blogTwo env n g fmt c = .ok ops c' ∧ Sys.run env text folder so fuel [ops] duration delete ⟨c', fs⟩ = .ok () s' ∧
      duration ≤ total * step ∧ (∀ m : Nat, duration ≤ m * step → total ≤ m) ∧
      LogsWritten text folder fs0 (emitted events) s'.fs ∧ (∀ q, Below folder q → Absent fs0 q) ∧
      (∀ id, id ≠ "hello" → tablesOf id (emitted events) = []) ∧
      (loggedRows "hello" (emitted events)).map (·.idx) = ((every 2 (List.range total)).flatMap fun _ => idsFrom b n) ∧
      execDates 0 events = (List.range total).map (fun k : Nat => start + (k : Int) * step) ∧
      ∀ e1 e2 date j logs, events = e1 ++ (date, .exec j logs) :: e2 → ∀ t ∈ tablesOf "hello" logs,
        t.cols = ["PERSON_ID", "TIME", "MESSAGE"] ∧ ∀ i ∈ t.index, valueAt t i "PERSON_ID" = .scalar i ∧
          valueAt t i "MESSAGE" = .str "hello world" ∧
          ∃ k : Nat, (k : Int) * 1000000000 < step ∧ valueAt t i "TIME" = fmt (date + (k : Int) * 1000000000) := by
  have h0 : (0 : Int) < step := lt_of_lt_of_le (by decide) hstep
  obtain ⟨c, hnew⟩ := Builds.new_ends_ok env name seed start step
  obtain ⟨i, c1, h1⟩ := Builds.ends_blogPersons (n := n) hsem hg hnames hages hnew
  obtain ⟨rfl, a, y, -, -, -, s1⟩ := Blog.createPersons_lot hsem hg hnew h1
  obtain ⟨own, c', h2⟩ := Builds.ends_helloStory (q := ⟨idsFrom b n, n, [("NAME", a), ("AGE", y)], []⟩)
    (Music.length_idsFrom b n) s1
  obtain ⟨ops, hbuild⟩ : ∃ ops, blogTwo env n g fmt c = .ok ops c' := by
    rw [blogTwo, Act.bind_ok h1, Act.bind_ok h2]
    exact ⟨_, rfl⟩
  obtain ⟨k1, k2, k3, k4, k5, k6, q, x, p1, p2, p3, p4, p5, p6, p7, p8⟩ := two_built hsem hg h0.le hnew hbuild
  obtain ⟨hfit, hsafe⟩ := two_safe (fmt := fmt) p4 p1 p2 p3 p5 p6 p7 p8 (by rw [k2]; exact hstep)
  rw [← k3] at hsafe
  obtain ⟨s', hrun, -⟩ := C101_run (fmt := text) so fuel d duration delete ⟨c', fs⟩ hfit (by
    change c'.world.clock.step ≠ 0
    rw [k2]
    omega) hsafe ht hroot hne hc hd hfuel hdel
  have hrun' := hrun
  rw [k3] at hrun'
  have hk : ∀ ops ∈ (scene fmt).chains env, ∀ op ∈ ops, KeepsDate op := fun ops ho op hop =>
    C59_builtIn_keepsDate op (Slides.slides_all (F := (· ≠ 0)) (Z := (· ≠ 0)) ops ho op hop)
  obtain ⟨total, events, fs0, t0, t1, t2, t3, -, t4⟩ := C60_logs so fuel d duration delete ⟨c', fs⟩ s' hk ht hd hfuel hrun'
  have t0 : c'.world.clock.nIterations duration = .ok total := t0
  have t2 : events.map (fun e => (e.1, e.2.story)) =
      schedule c'.world.clock.current c'.world.clock.step total.toNat ((scene fmt).chains env).length := t2
  have hdates := Shop.execDates_schedule (i := 0) (by simp [Slides.Scene.chains]) t2
  rw [k1, k2] at hdates
  obtain ⟨m, q1, q2, q3, q4⟩ := C09_n_iterations c'.world.clock duration (by rw [k2]; exact h0) hdur
  rw [t0] at q1
  cases q1
  rw [k2] at q3 q4
  have hnat : ((total.toNat : Nat) : Int) = total := Int.toNat_of_nonneg q2
  refine ⟨c, ops, c', s', events, fs0, total.toNat, hnew, hbuild, hrun, by rw [hnat]; exact q3,
    fun m hm => by have := q4 m hm; omega, t4, t3, fun id hid => ?_, ?_, hdates, fun e1 e2 date j logs he t hmem => ?_⟩
  · have key : ∀ (evs : List (Int × Event)) (w w' : World σ (AnyGen σ)), Slides.Ready env g.quotes (scene fmt) (idsFrom b n) w →
        Played env ((scene fmt).chains env) w evs w' → tablesOf id (emitted evs) = [] := by
      intro evs w w' hw hpl
      induction hpl with
      | nil w => rfl
      | exec hi h rest ih =>
        rw [show ∀ (d : Int) (j : Nat) (l : Logs) (r : List (Int × Event)), emitted ((d, Event.exec j l) :: r) = l ++ emitted r
          from fun _ _ _ _ => rfl, Shop.tablesOf_append, (Slides.did hsem hw hi h).other id hid, List.nil_append]
        exact ih (Slides.exec_ready hsem hw hi h)
      | tick rest ih => exact ih (Slides.tick_ready hw)
    exact key _ _ _ k4 t1
  · have hm : ∀ (f : Nat → Int) (j : Nat) (l : List Nat), everyFrom 2 j (l.map f) = (everyFrom 2 j l).map f := by
      intro f j l
      induction l generalizing j with
      | nil => rfl
      | cons x l ih =>
        rw [List.map_cons, everyFrom, everyFrom]
        split
        · rw [ih, List.map_cons]
        · exact ih _
    rw [Slides.C135_log hsem k4 k5 k6 t1, hdates, every, hm, List.flatMap_map]
    rfl
  · rw [he] at t1
    obtain ⟨z1, z2⟩ := Slides.C135_records hsem k4 t1 t hmem
    refine ⟨z1, fun i hi => ?_⟩
    have z := z2 i hi
    rw [k2] at z
    exact ⟨z.person (by simp [scene, Slides.Talk.fields]), z.hello (.inl rfl), z.time⟩

/-! ### Non-vacuity -/

/-- the table of the first example of the blog, the ids and the names -/
def exTable (n : Nat) : Option (List (Val × Cell)) :=
  match Circus.new Rng.counter "example1" 12345 0 (3600 * nsPerSec) with
  | .ok c => match blogOne Trumania.exEnv n Blog.exParts c with
    | .ok f _ => some (f.rows.map fun r => (r.idx, cell f r "NAME"))
    | .error _ _ => none
  | .error _ => none

example : exTable 2 = some [(.str "PERSON_000", .str "A"), (.str "PERSON_001", .str "B")] := by decide +kernel
example : (exTable 11).map List.length = some 10 := by decide +kernel

/-- the generators of the examples always give, and so are all the hypotheses met -/
example (n : Nat) (seed : Int) := C143_blog_one (env := Trumania.exEnv) rfl n Blog.exUsual
  (fun _ => Builds.any (gives_choice rfl (by simp))) (fun _ => Builds.any (gives_uniform rfl)) "example1" seed 0 (3600 * nsPerSec)

example (seed duration : Int) (h : 0 ≤ duration) := C143_slide_one (env := Trumania.exEnv) Trumania.exFmt
  (folder := ["logs"]) (SetOrder.dedup String) (fuel := 1) (d := 0) (fs := [([], .dir)]) h ⟨by decide +kernel, by simp [At]⟩
  (by simp [DepthBelow, At]) (by omega) "example1" seed 0 (step := 3600 * nsPerSec) (by decide)

example (n : Nat) (seed duration : Int) (h : 0 ≤ duration) := C143_slide_two (env := Trumania.exEnv) rfl n Blog.exUsual
  (fun _ => Builds.any (gives_choice rfl (by simp))) (fun _ => Builds.any (gives_uniform rfl)) Trumania.exFmt
  (folder := ["logs"]) (SetOrder.dedup String) (fuel := 1) (d := 0) (fs := [([], .dir)]) h ⟨by decide +kernel, by simp [At]⟩
  (by simp [DepthBelow, At]) (by omega) "example" seed 0 (step := 3600 * nsPerSec) (by decide)

example (n : Nat) (seed duration : Int) (h : 0 ≤ duration) := C143_blog_two (env := Trumania.exEnv) rfl n Blog.exUsual
  (fun _ => Builds.any (gives_choice rfl (by simp))) (fun _ => Builds.any (gives_uniform rfl)) Blog.exFmt "example" seed 0
  (step := 3600 * nsPerSec) (by decide) Trumania.exFmt (folder := ["logs"]) (SetOrder.dedup String) (fuel := 1) (d := 0) h
  false (fs := [([], .dir)]) ⟨by decide +kernel, by simp [At]⟩ (by simp [At]) (by simp) (by simp [At])
  (by simp [DepthBelow, At]) (by omega) (.inr (by simp [Absent, At]))

end Firsts
end Trumania
