import Verif.Proofs.SlidesBuild
import Verif.Props.Blog

/-!
# C135: what the records of the examples 3 to 8 of examples/presentation tell
-/

namespace Trumania
namespace Slides
open Spec World Circus Cdr
open Shop (onWorld_ok played_at tablesOf_append)
open Music (length_idsFrom)
open Hello (Lot acting_same first_begins lot_seeded)
open Blog (relationsAt relationsAt_of stockAt_relations speakers QuotesGiven Fixed speakers_wait constant_lot active_lot
  addQuotes_lot relNamed_lot choiceIn_lot)
variable {σ : Type} {env : Env σ (AnyGen σ)} {w w' : World σ (AnyGen σ)} {sc : Scene} {evs : List (Int × Event)}
  {c c' : Circus σ (AnyGen σ)} {ids : List Val} {sentences : Int → AnyGen σ}

theorem along (hsem : env.sem = AnyGen.sem env.R) (h : Played env (sc.chains env) w evs w')
    (hw : Ready env sentences sc ids w) : Ready env sentences sc ids w' ∧ Fixed env sc.talk.rels w w' := by
  induction h with
  | nil w => exact ⟨hw, rfl, id, fun _ _ _ _ => .refl _, rfl⟩
  | exec hi h rest ih =>
    have hd := (did hsem hw hi h).still
    obtain ⟨k1, k2⟩ := ih (exec_ready hsem hw hi h)
    exact ⟨k1, k2.pops.trans hd.pops, fun h => k2.ok (hd.ok h),
      fun h o k hk => (k2.same (hd.ok h) o k hk).trans (hd.same h o k hk), k2.step.trans hd.step⟩
  | tick rest ih =>
    obtain ⟨k1, k2⟩ := ih (tick_ready hw)
    exact ⟨k1, k2.pops, k2.ok, k2.same, k2.step⟩

theorem Told.back {d : Int} {i : Val} {g : String → Cell} (hw : StocksOk env sc.talk.rels w)
    (hs : Fixed env sc.talk.rels w w') (h : Told env sentences sc ids w' d w'.clock.step i g) :
    Told env sentences sc ids w d w.clock.step i g := by
  have hv : ∀ {n s c}, ValueOf w' 0 n s c → ValueOf w 0 n s c := fun {n s c} h => by
    rw [ValueOf, hs.pops] at h
    exact h
  refine ⟨h.person, by rw [← hs.step]; exact h.time, h.hello, h.sentence, fun h3 => ?_, fun h3 => ?_,
    fun hm => hv (h.emitter hm)⟩
  · obtain ⟨t, h1, h2⟩ := h.quote h3
    refine ⟨t, h1, fun o => ?_⟩
    have hp : ∀ x, x ∈ relationsAt o w' 0 ↔ x ∈ relationsAt o w 0 := fun x =>
      (hs.same hw o 0 (by rw [h3]; decide)).mem_iff
    obtain ⟨⟨wt, k1⟩, k2⟩ := h2 o
    refine ⟨⟨wt, (hp _).1 k1⟩, fun hna => ?_⟩
    obtain ⟨wt', k3, k4⟩ := k2 hna
    exact ⟨wt', k3, (hp _).1 k4⟩
  · obtain ⟨t, h1, h2, h3⟩ := h.other h3
    exact ⟨t, h1, h2, fun hm => hv (h3 hm)⟩

/-! ### The records of a run -/

/-- **C135** In any run of a script, an execution of the story writes only in the log `hello`: one table, with one record
for each person whose timer is 0, in the order of the persons. If there is no such person, it writes nothing. -/
theorem C135_who (hsem : env.sem = AnyGen.sem env.R) (hw : Ready env sentences sc ids w) {e1 e2 : List (Int × Event)}
    {d : Int} {j : Nat} {logs : Logs} (h : Played env (sc.chains env) w (e1 ++ (d, .exec j logs) :: e2) w') :
    (∀ id, id ≠ "hello" → tablesOf id logs = []) ∧
    ∃ u, Played env (sc.chains env) w e1 u ∧ (speakers u ids = [] → logs = []) ∧
      (speakers u ids ≠ [] → ∃ t, tablesOf "hello" logs = [t] ∧ t.index = speakers u ids) := by
  obtain ⟨u, u', ops, h1, hi, hx, -, -⟩ := played_at h rfl
  obtain ⟨hu, -⟩ := along hsem h1 hw
  have hd := did hsem hu hi hx
  refine ⟨hd.other, u, h1, fun e => ?_, fun e => ?_⟩
  · rcases hd.spoke with ⟨-, k⟩ | ⟨k, -⟩
    · exact k
    · exact absurd e k
  · rcases hd.spoke with ⟨k, -⟩ | ⟨-, t, k1, -, k3, -⟩
    · exact absurd k e
    · exact ⟨t, k1, k3⟩

/-- **C135** In any run of a script, each record has the fields of the script, in order, and tells of the person it is
about: its id, its name, a date in the step of the clock, "hello world" (scripts 3 and 4), a sentence that the generator of
sentences gave (5, 6 and 8) or one of the quotes of the person, never one that it only has with weight 0 (7), and one of
the persons, by its id or its name. -/
theorem C135_records (hsem : env.sem = AnyGen.sem env.R) (hw : Ready env sentences sc ids w) {e1 e2 : List (Int × Event)}
    {d : Int} {j : Nat} {logs : Logs} (h : Played env (sc.chains env) w (e1 ++ (d, .exec j logs) :: e2) w') :
    ∀ t ∈ tablesOf "hello" logs, t.cols = sc.talk.fields ∧
      ∀ i ∈ t.index, Told env sentences sc ids w d w.clock.step i (valueAt t i) := by
  obtain ⟨u, u', ops, h1, hi, hx, -, hd⟩ := played_at h rfl
  obtain ⟨hu, hs⟩ := along hsem h1 hw
  intro t ht
  rcases (did hsem hu hi hx).spoke with ⟨-, rfl⟩ | ⟨-, t', k1, k2, -, k4⟩
  · simp [tablesOf] at ht
  · rw [k1, List.mem_singleton] at ht
    subst ht
    exact ⟨k2, fun i hi => by rw [hd]; exact (k4 i hi).back hw.stocks hs⟩

/-- **C135** The populations and the quotes never change. -/
theorem C135_constant (hsem : env.sem = AnyGen.sem env.R) (hw : Ready env sentences sc ids w)
    (h : Played env (sc.chains env) w evs w') :
    w'.pops = w.pops ∧ ∀ o, ∀ k ∈ sc.talk.rels, (relationsAt o w' k).Perm (relationsAt o w k) :=
  ⟨(along hsem h hw).2.pops, (along hsem h hw).2.same hw.stocks⟩

theorem slides_all {F Z : Nat → Prop} : ∀ ops ∈ sc.chains env, ∀ op ∈ ops, BuiltIn env F Z op := by
  intro ops ho
  obtain ⟨j, hj⟩ := List.mem_iff_getElem?.1 ho
  exact (slides_builtIn hj).2

/-- **C135** The records of the whole log of a run, when the timer is the constant 1 (all scripts but the last one): those
of all the persons, at every second execution. -/
theorem C135_log (hsem : env.sem = AnyGen.sem env.R) (hw : Ready env sentences sc ids w) (hb : Beats w 0 1 ids)
    (hq : AllWait w 0 1) (h : Played env (sc.chains env) w evs w') :
    (loggedRows "hello" (emitted evs)).map (·.idx) = (every 2 (execDates 0 evs)).flatMap fun _ => ids := by
  suffices H : ∀ j, AllWait w 0 ((1 - j % (1 + 1) : Nat) : Rat) → (loggedRows "hello" (emitted evs)).map (·.idx) =
      (everyFrom 2 j (execDates 0 evs)).flatMap fun _ => ids from H 0 (by simpa using hq)
  clear hq
  intro j hq
  induction h generalizing j with
  | nil w => rfl
  | @exec w w1 w' l j' ops logs hi h rest ih =>
    have hd := did hsem hw hi h
    obtain ⟨rfl, hmem⟩ := slides_builtIn hi (F := (· ≠ 0)) (Z := (· ≠ 0))
    have hsp := speakers_wait hb hq
    obtain ⟨g1, g2⟩ := wait_self hmem h hb (Nat.cast_nonneg _) hq
    rw [← left_succ] at g2
    have ih := ih (exec_ready hsem hw hi h) g1 (j + 1) g2
    rw [show emitted ((w.clock.current, Event.exec 0 logs) :: l) = logs ++ emitted l from rfl, execDates_self, loggedRows,
      tablesOf_append, List.flatMap_append, List.map_append, everyFrom]
    rw [loggedRows] at ih
    rw [ih]
    by_cases h2 : 2 ∣ j + 1
    · rw [if_pos h2, List.flatMap_cons]
      rw [if_pos ((left_zero 1 _).2 h2)] at hsp
      congr 1
      rcases hd.spoke with ⟨k, rfl⟩ | ⟨-, t, k1, -, k3, -⟩
      · rw [hsp] at k
        rw [k]
        rfl
      · rw [k1, ← hsp, ← k3]
        simp [Frame.index]
    · rw [if_neg h2]
      rw [if_neg fun h0 => h2 ((left_zero 1 _).1 h0)] at hsp
      rcases hd.spoke with ⟨-, rfl⟩ | ⟨k, -⟩
      · rfl
      · exact absurd hsp k
  | @tick w w' l rest ih =>
    rw [execDates_tick]
    exact ih (tick_ready hw) ⟨hb.story, hb.nodup⟩ j hq

/-! ### What is built -/

/-- the quotes, in script 7 -/
theorem quotes_lot (hsem : env.sem = AnyGen.sem env.R) {g : Blog.Parts (AnyGen σ)} {p : Population} {k : Int × Int}
    {t : Talk} {u : Unit} (hsize : p.ids.length = p.size) (hp : p.relationships = []) (hs : Lot env [] [p] [] k w)
    (h : addQuotes env g 0 t w = .ok u w') : ∃ R q, Lot env R [q] [] k w' ∧ q.ids = p.ids ∧ q.size = p.size ∧
      q.attributes = p.attributes ∧
      R.length = t.rels.length ∧ (t = .seven → (∃ L, R[0]? = some L ∧ QuotesGiven p.ids L) ∧
        q.relationships.get? "quotes" = some 0) := by
  by_cases ht : t = .seven
  · subst ht
    obtain ⟨L, hL, s0⟩ := addQuotes_lot hsem rfl hsize hs h
    refine ⟨[L], _, s0, rfl, rfl, rfl, rfl, fun _ => ⟨⟨L, rfl, hL⟩, ?_⟩⟩
    show Dict.get? (Dict.set p.relationships "quotes" 0) "quotes" = _
    rw [hp]
    rfl
  · have h : (pure () : Act _ _) w = .ok u w' := by
      revert h ht
      cases t <;> simp [addQuotes]
    obtain ⟨-, rfl⟩ := Act.pure_eq_ok.1 h
    refine ⟨[], p, hs, rfl, rfl, rfl, ?_, fun h => absurd h ht⟩
    revert ht
    cases t <;> simp [Talk.rels]

/-- the story of a script -/
theorem story_lot (hsem : env.sem = AnyGen.sem env.R) {g : Blog.Parts (AnyGen σ)} {b : SeqGen} (hg : g.Usual b)
    {q : Population} {k : Int × Int} {R : List (List (Val × Val × Rat))} {n : Nat} {t : Talk}
    (hs : Lot env R [q] [] k c.world) (h : addStory env g 0 t c = .ok n c') : n = 0 ∧ ∃ s : Story σ,
      s.idField = "PERSON_ID" ∧ s.ids = q.ids ∧ Lot env R [q] [s] k c'.world ∧ (Begins s q.ids fun _ => False) ∧
      (t ≠ .eight → Beats c'.world 0 1 q.ids ∧ AllWait c'.world 0 1 ∧ s.timerGen = .constant (.num 1)) ∧
      (t = .eight → s.autoReset = true ∧ (∃ seed, Began env c'.world s.timerGen (g.timer seed)) ∧
        ∀ i ∈ q.ids, ∃ ps y, s.params.get? i = some ps ∧ ps.get? (.str "default") = some y ∧
          Val.num y.activity ∈ [Val.num 10, .num 20, .num 30]) := by
  by_cases ht : t = .eight
  · subst ht
    change (do
      let activity ← onWorld (Snd.seeded env (g.choice [.num 10, .num 20, .num 30] none))
      let timer ← onWorld (Snd.seeded env g.timer)
      createStory env (Blog.helloStory 0 (some (timer, activity)))) c = _ at h
    obtain ⟨r1, c1, h1, h⟩ := Act.bind_eq_ok.1 h
    obtain ⟨u1, h1', rfl⟩ := onWorld_ok h1
    obtain ⟨r2, c2, h2, h⟩ := Act.bind_eq_ok.1 h
    obtain ⟨u2, h2', rfl⟩ := onWorld_ok h2
    obtain ⟨s2, ⟨seed, b1⟩, x, b2⟩ := activity_lot hg hs h1' h2'
    obtain ⟨rfl, s, e1, e2, s3, auto, -, tb, hact, hbe⟩ := active_lot (c := { c with world := u2 }) hsem s2 b1 b2 h
    exact ⟨rfl, s, e1, e2, s3, hbe, fun k => absurd rfl k, fun _ => ⟨auto, ⟨seed, tb⟩, hact⟩⟩
  · have h : createStory env (Blog.helloStory 0 none) c = .ok n c' := by
      revert h ht
      cases t <;> simp [addStory]
    obtain ⟨rfl, s, e1, e2, s2, hb, hq, hbe, hcon⟩ := constant_lot hs h
    exact ⟨rfl, s, e1, e2, s2, hbe, fun _ => ⟨hb, hq, hcon⟩, fun k => absurd k ht⟩

/-- the objects that the operations use -/
theorem cast_lot {g : Blog.Parts (AnyGen σ)} {b : SeqGen} (hg : g.Usual b) {q : Population} {k : Int × Int}
    {R : List (List (Val × Val × Rat))} {T : List (Story σ)} {t : Talk} {x : Cast}
    (hq : t = .seven → q.relationships.get? "quotes" = some 0)
    (hs : Lot env R [q] T k w) (h : cast env g 0 t w = .ok x w') : x.person = 0 ∧ x.quotes = 0 ∧ Lot env R [q] T k w' ∧
      (∀ {r a}, Began env w r a → Began env w' r a) ∧ (t ≠ .three → ∃ y, Began env w' x.choice (.choice q.ids none y)) ∧
      (t = .five ∨ t = .six ∨ t = .eight → ∃ seed, Began env w' x.sentences (g.quotes seed)) := by
  have hcase : t = .three ∨ t = .four ∨ t = .seven ∨ (t = .five ∨ t = .six ∨ t = .eight) := by cases t <;> simp
  rcases hcase with rfl | rfl | rfl | ht
  · obtain ⟨rfl, rfl⟩ := Act.pure_eq_ok.1 h
    exact ⟨rfl, rfl, hs, id, fun k => absurd rfl k, by simp⟩
  · obtain ⟨r, w1, h1, h⟩ := Act.bind_eq_ok.1 h
    obtain ⟨rfl, rfl⟩ := Act.pure_eq_ok.1 h
    obtain ⟨s3, f3, b3⟩ := choiceIn_lot hg rfl hs h1
    exact ⟨rfl, rfl, s3, f3, fun _ => b3, by simp⟩
  · obtain ⟨rel, w1, h1, h⟩ := Act.bind_eq_ok.1 h
    obtain ⟨rfl, e4⟩ := relNamed_lot rfl hs h1
    rw [hq rfl] at e4
    cases e4
    obtain ⟨r, w2, h2, h⟩ := Act.bind_eq_ok.1 h
    obtain ⟨rfl, rfl⟩ := Act.pure_eq_ok.1 h
    obtain ⟨s3, f3, b3⟩ := choiceIn_lot hg rfl hs h2
    exact ⟨rfl, rfl, s3, f3, fun _ => b3, by simp⟩
  · replace h : (do
        let sentences ← Snd.seeded env g.quotes
        let choice ← Blog.choiceIn env g 0
        pure (⟨0, 0, sentences, choice⟩ : Cast)) w = .ok x w' := by
      rcases ht with rfl | rfl | rfl <;> exact h
    obtain ⟨r1, w1, h1, h⟩ := Act.bind_eq_ok.1 h
    have s1 := lot_seeded hs h1
    obtain ⟨a1, -, seed, b1⟩ := Shop.after_seeded (env := env) h1
    obtain ⟨r, w2, h2, h⟩ := Act.bind_eq_ok.1 h
    obtain ⟨rfl, rfl⟩ := Act.pure_eq_ok.1 h
    obtain ⟨s3, f3, b3⟩ := choiceIn_lot hg rfl s1 h2
    exact ⟨rfl, rfl, s3, fun hb => f3 (a1.began hb), fun _ => b3, fun _ => ⟨seed, f3 b1⟩⟩

/-- **C135** Each script, when it succeeds, builds what the story needs. -/
theorem C135_built (hsem : env.sem = AnyGen.sem env.R) {n : Nat} {g : Blog.Parts (AnyGen σ)} {b : SeqGen} (hg : g.Usual b)
    {fmt : Int → Cell} {name : String} {seed start step : Int} (hstep : 0 ≤ step)
    (hnew : Circus.new env.R name seed start step = .ok c) {t : Talk} {ops : List (Op (World σ (AnyGen σ)))}
    (h : t.build env n g fmt c = .ok ops c') : c'.world.clock.current = start ∧ c'.world.clock.step = step ∧
      ∃ sc : Scene, sc.talk = t ∧ sc.fmt = fmt ∧ [ops] = sc.chains env ∧
      Ready env g.quotes sc (idsFrom b n) c'.world ∧ Opening n g b env sc c'.world := by
  have hlen : (idsFrom b n).length = n := length_idsFrom _ _
  rw [Talk.build] at h
  obtain ⟨i, c1, h1, h⟩ := Act.bind_eq_ok.1 h
  obtain ⟨rfl, a, y, ha, hy, s1⟩ := createPersons_lot hsem hg hnew h1
  obtain ⟨x0, c0, h0, h⟩ := Act.bind_eq_ok.1 h
  obtain ⟨u0, h0', rfl⟩ := onWorld_ok h0
  obtain ⟨R, q, s0, hids, -, hattr, hR, hQ⟩ := quotes_lot hsem hlen rfl s1 h0'
  change q.ids = idsFrom b n at hids
  change q.attributes = [("NAME", a), ("age", y)] at hattr
  obtain ⟨own, c2, h2, h⟩ := Act.bind_eq_ok.1 h
  obtain ⟨rfl, s, e1, e2, s2, hbe, hcon, hact⟩ := story_lot (c := { c1 with world := u0 }) hsem hg s0 h2
  obtain ⟨x, c3, h3, h⟩ := Act.bind_eq_ok.1 h
  obtain ⟨u3, h3', rfl⟩ := onWorld_ok h3
  obtain ⟨xp, xq, s3, f3, hany, hsay⟩ := cast_lot hg (fun k => (hQ k).2) s2 h3'
  obtain ⟨rfl, rfl⟩ := Act.pure_eq_ok.1 h
  obtain ⟨x1, x2, x3, x4⟩ := x
  obtain rfl : x1 = 0 := xp
  obtain rfl : x2 = 0 := xq
  have hpops : u3.pops[0]? = some q := by rw [s3.pops]; rfl
  have hst : u3.stories[0]? = some s := by rw [s3.stories]; rfl
  have hQ' : t = .seven → ∃ r, u3.rels[0]? = some r ∧ Relationship.Reachable env.R r ∧
      ∀ o, QuotesGiven (idsFrom b n) (relationsAt o u3 0) := by
    intro k
    obtain ⟨⟨L, hL, q0, q1, q2, q3, e0, e1, e2, e3, hp⟩, -⟩ := hQ k
    obtain ⟨r, hr, hw⟩ := forall₂_at' s3.rels hL
    exact ⟨r, hr, hw.1, fun o => ⟨q0, q1, q2, q3, e0, e1, e2, e3, by rw [relationsAt_of hr]; exact (hw.2 o).trans hp⟩⟩
  refine ⟨s3.clock.1, s3.clock.2, ⟨t, x3, x4, fmt⟩, rfl, rfl, rfl, ⟨by rw [s3.pops]; exact s3.wf, ⟨q, hpops, hids⟩,
    ⟨s, hst, e1, e2.trans hids⟩, fun i hi => ?_, hsay, fun k => by rw [← hids]; exact hany k, fun k o i hi => ?_,
    by show 0 ≤ u3.clock.step; rw [s3.clock.2]; exact hstep⟩, ⟨⟨q, hpops, hids, ⟨a, ?_, by rw [hids]; exact ha⟩, y, ?_,
    by rw [hids]; exact hy⟩, fun k => ?_, fun k => ?_, fun k => ?_, by show u3.pops.length = 1; rw [s3.pops]; rfl,
    s3.rels.length_eq.trans hR, s, s3.stories, hids ▸ hbe, fun k => (hcon k).2.2⟩⟩
  · have hi' : i = 0 ∧ t = .seven := by
      revert hi
      cases t <;> simp [Talk.rels]
    obtain ⟨rfl, k⟩ := hi'
    obtain ⟨r, r1, r2, -⟩ := hQ' k
    exact ⟨r, r1, r2⟩
  · obtain ⟨r, -, -, hq⟩ := hQ' k
    have := (hq o).two hi
    rw [held, stockAt_relations, List.countP_map]
    exact this
  · rw [attributeOf, hattr]; simp
  · rw [attributeOf, hattr]; simp
  · obtain ⟨r, -, -, hq⟩ := hQ' k
    exact hq
  · rw [← hids]
    exact acting_same (s3.stories.trans s2.stories.symm) ⟨(hcon k).1, (hcon k).2.1⟩
  · obtain ⟨t1, ⟨sd, t2⟩, t3⟩ := hact k
    refine ⟨s, hst, t1, ⟨sd, f3 t2⟩, fun i hi => ?_⟩
    obtain ⟨ps, z, z1, z2, z3⟩ := t3 i (by rw [hids]; exact hi)
    exact ⟨ps, z, z1, z2, by simpa using z3⟩

/-- **C135** Any run of a script, from the creation of the circus to the end: the log files hold what a run of the
operations logs, from a world that has what the script says. In all scripts but the last one, those are the records of all
the persons at every second step of the clock. -/
theorem C135_run (hsem : env.sem = AnyGen.sem env.R) {n : Nat} {g : Blog.Parts (AnyGen σ)} {b : SeqGen} (hg : g.Usual b)
    {fmt : Int → Cell} {name : String} {seed start step : Int} (hstep : 0 < step)
    (hnew : Circus.new env.R name seed start step = .ok c) {t : Talk} {ops : List (Op (World σ (AnyGen σ)))}
    (hbuild : t.build env n g fmt c = .ok ops c') {text : Cell → Text} {folder : Path} (so : SetOrder String)
    (fuel d : Nat) (duration : Int) (delete : Bool) {fs : FS} {s' : Sys σ (AnyGen σ)} (ht : Tree fs)
    (hd : DepthBelow fs folder d) (hfuel : d < fuel)
    (h : Sys.run env text folder so fuel [ops] duration delete ⟨c', fs⟩ = .ok () s') :
    ∃ (sc : Scene) (total : Nat) (events : List (Int × Event)) (fs0 : FS), sc.talk = t ∧ sc.fmt = fmt ∧
      (0 ≤ duration → c'.world.clock.nIterations duration = .ok total) ∧
      Opening n g b env sc c'.world ∧ Ready env g.quotes sc (idsFrom b n) c'.world ∧
      Played env (sc.chains env) c'.world events s'.circus.world ∧ LogsWritten text folder fs0 (emitted events) s'.fs ∧
      execDates 0 events = (List.range total).map (fun k : Nat => start + (k : Int) * step) ∧
      (t ≠ .eight → (loggedRows "hello" (emitted events)).map (·.idx) =
        (every 2 (List.range total)).flatMap fun _ => idsFrom b n) := by
  obtain ⟨e1, e2, sc, k1, k2, k3, k4, k5⟩ := C135_built hsem hg hstep.le hnew hbuild
  rw [k3] at h
  have hk : ∀ ops ∈ sc.chains env, ∀ op ∈ ops, KeepsDate op := fun ops ho op hop =>
    C59_builtIn_keepsDate op (slides_all (F := (· ≠ 0)) (Z := (· ≠ 0)) ops ho op hop)
  obtain ⟨total, events, fs0, h0, h1, h2, -, -, h3⟩ := C60_logs so fuel d duration delete ⟨c', fs⟩ s' hk ht hd hfuel h
  have h0 : c'.world.clock.nIterations duration = .ok total := h0
  have h2 : events.map (fun e => (e.1, e.2.story)) =
      schedule c'.world.clock.current c'.world.clock.step total.toNat (sc.chains env).length := h2
  have hdates := Shop.execDates_schedule (i := 0) (by simp [Scene.chains]) h2
  rw [e1, e2] at hdates
  refine ⟨sc, total.toNat, events, fs0, k1, k2, fun hdur => ?_, k5, k4, h1, h3, hdates, fun hp => ?_⟩
  · obtain ⟨m, q1, q2, -⟩ := C09_n_iterations c'.world.clock duration (by rw [e2]; exact hstep) hdur
    rw [h0] at q1 ⊢
    cases q1
    rw [Int.toNat_of_nonneg q2]
  · obtain ⟨hb, hq⟩ := k5.paced (by rw [k1]; exact hp)
    have hm : ∀ (f : Nat → Int) (j : Nat) (l : List Nat), everyFrom 2 j (l.map f) = (everyFrom 2 j l).map f := by
      intro f j l
      induction l generalizing j with
      | nil => rfl
      | cons x l ih =>
        rw [List.map_cons, everyFrom, everyFrom]
        split
        · rw [ih, List.map_cons]
        · exact ih _
    rw [C135_log hsem k4 hb hq h1, hdates, every, hm, List.flatMap_map]
    rfl

/-! ### Non-vacuity -/

def exBuild (t : Talk) (n : Nat) : Option (List (Op (World Nat (AnyGen Nat))) × Circus Nat (AnyGen Nat)) :=
  match Circus.new Rng.counter "example" 12345 0 (3600 * nsPerSec) with
  | .ok c => match t.build Trumania.exEnv n Blog.exParts Blog.exFmt c with
    | .ok ops c' => some (ops, c')
    | .error _ _ => none
  | .error _ => none

/-- the fields of the records of a run of some steps of the clock, without the date -/
def exRecords (t : Talk) (n steps : Nat) : Option (List (List Cell)) :=
  (exBuild t n).bind fun x => (Snd.play exEnv [x.1] (List.replicate steps [some 0, none]).flatten x.2.world).map fun r =>
    (tablesOf "hello" (emitted r.1)).flatMap fun tb => tb.rows.map fun r =>
      (t.fields.filter fun c => decide (c ≠ "TIME")).map (cell tb r)

/-- in script 5, two steps of the clock -/
theorem exFive : exRecords .five 2 2 = some
    [[.str "PERSON_000", .str "PERSON_000", .str "Yes."], [.str "PERSON_001", .str "PERSON_001", .str "I see."]] := by
  decide +kernel

/-- in script 7, two steps of the clock -/
theorem exSeven : exRecords .seven 2 2 = some [[.str "PERSON_000", .str "Why?", .str "PERSON_001", .str "C", .str "A"],
    [.str "PERSON_001", .str "Maybe.", .str "PERSON_000", .str "A", .str "C"]] := by decide +kernel

/-- in script 8, two steps of the clock -/
theorem exEight : exRecords .eight 2 2 = some [[.str "C", .str "C", .str "Why?"], [.str "A", .str "A", .str "Maybe."],
    [.str "C", .str "C", .str "No."], [.str "A", .str "A", .str "Yes."]] := by decide +kernel

/-- the hypotheses of C135 hold of a run of each script -/
theorem exHolds {t : Talk} {n steps : Nat} {l : List (List Cell)} (h : exRecords t n steps = some l) (hl : l ≠ []) :
    ∃ (sc : Scene) (c c' : Circus Nat (AnyGen Nat)) (evs : List (Int × Event)) (w' : World Nat (AnyGen Nat)),
      sc.talk = t ∧ Circus.new Trumania.exEnv.R "example" 12345 0 (3600 * nsPerSec) = .ok c ∧
      Ready Trumania.exEnv Blog.exParts.quotes sc (idsFrom ⟨0, "PERSON_", 3⟩ n) c'.world ∧
      Opening n Blog.exParts ⟨0, "PERSON_", 3⟩ Trumania.exEnv sc c'.world ∧
      Played Trumania.exEnv (sc.chains Trumania.exEnv) c'.world evs w' ∧ tablesOf "hello" (emitted evs) ≠ [] := by
  obtain ⟨⟨ops, c'⟩, h1, h2⟩ := Option.bind_eq_some_iff.1 h
  obtain ⟨⟨evs, w'⟩, h3, h4⟩ := Option.map_eq_some_iff.1 h2
  rw [exBuild] at h1
  split at h1
  · rename_i c hc
    split at h1
    · rename_i hb
      cases h1
      obtain ⟨-, -, sc, k0, -, k1, k2, k3⟩ := C135_built (env := Trumania.exEnv) rfl Blog.exUsual (by decide) hc hb
      refine ⟨sc, c, _, evs, w', k0, hc, k2, k3, ?_, fun e => ?_⟩
      · rw [← k1]
        exact Snd.play_played h3
      · simp only [e] at h4
        exact hl h4.symm
    · cases h1
  · cases h1

example := exHolds exFive (by decide)
example := exHolds exSeven (by decide)
example := exHolds exEight (by decide)

end Slides
end Trumania
