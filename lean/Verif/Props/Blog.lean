import Verif.Proofs.BlogBuild
import Verif.Props.Hello
import Verif.Proofs.Kinds

/-!
# C131: what the records of the examples 3 to 6 of examples/datacamp-blogpost tell
-/

namespace Trumania
namespace Blog
open Spec World Circus Cdr
open Shop (onWorld_ok played_at tablesOf_append)
open Music (length_idsFrom)
open Hello (Lot acting_same first_begins)
variable {σ : Type} {env : Env σ (AnyGen σ)} {w w' : World σ (AnyGen σ)} {sc : Scene} {evs : List (Int × Event)}
  {c c' : Circus σ (AnyGen σ)} {ids : List Val}

/-- what never changes -/
structure Fixed (env : Env σ (AnyGen σ)) (S : List Nat) (w w' : World σ (AnyGen σ)) : Prop where
  pops : w'.pops = w.pops
  ok : StocksOk env S w → StocksOk env S w'
  same : StocksOk env S w → ∀ o, ∀ k ∈ S, (relationsAt o w' k).Perm (relationsAt o w k)
  step : w'.clock.step = w.clock.step

theorem along (hsem : env.sem = AnyGen.sem env.R) (h : Played env (sc.chains env) w evs w') (hw : Ready env sc ids w) :
    Ready env sc ids w' ∧ Fixed env sc.post.rels w w' := by
  induction h with
  | nil w => exact ⟨hw, rfl, id, fun _ _ _ _ => .refl _, rfl⟩
  | exec hi h rest ih =>
    have hd := (did hsem hw hi h).still
    obtain ⟨k1, k2⟩ := ih (exec_ready hsem hw hi h)
    exact ⟨k1, k2.pops.trans hd.pops, fun h => k2.ok (hd.ok h),
      fun h o k hk => (k2.same (hd.ok h) o k hk).trans (hd.same h o k hk), k2.step.trans hd.step⟩
  | tick rest ih =>
    obtain ⟨k1, k2⟩ := ih (tick_ready hw)
    exact ⟨k1, k2.pops, k2.ok, k2.same, k2.step⟩

theorem Told.back {d : Int} {i : Val} {g : String → Cell} (hw : StocksOk env sc.post.rels w)
    (hs : Fixed env sc.post.rels w w') (h : Told sc ids w' d w'.clock.step i g) : Told sc ids w d w.clock.step i g := by
  have hv : ∀ {n s c}, ValueOf w' 0 n s c → ValueOf w 0 n s c := fun {n s c} h => by
    rw [ValueOf, hs.pops] at h
    exact h
  refine ⟨h.person, by rw [← hs.step]; exact h.time, h.hello, fun h3 => ?_, ?_, hv h.emitter⟩
  · have h0 : 0 ∈ sc.post.rels := by
      revert h3
      cases sc.post <;> decide
    obtain ⟨t, h1, h2⟩ := h.quote h3
    refine ⟨t, h1, fun o => ?_⟩
    have hp : ∀ x, x ∈ relationsAt o w' 0 ↔ x ∈ relationsAt o w 0 := fun x => (hs.same hw o 0 h0).mem_iff
    obtain ⟨⟨wt, k1⟩, k2⟩ := h2 o
    refine ⟨⟨wt, (hp _).1 k1⟩, fun hna => ?_⟩
    obtain ⟨wt', k3, k4⟩ := k2 hna
    exact ⟨wt', k3, (hp _).1 k4⟩
  · obtain ⟨t, h1, h2, h3, h4⟩ := h.other
    refine ⟨t, h1, h2, hv h3, fun h6 o => ?_⟩
    obtain ⟨wt, k⟩ := h4 h6 o
    exact ⟨wt, (hs.same hw o 1 (by rw [h6]; decide)).mem_iff.1 k⟩

/-! ### The records of a run -/

/-- **C131** In any run of a script, an execution of the story writes only in the log of the script: one table, with one
record for each person whose timer is 0, in the order of the persons. If there is no such person, it writes nothing. -/
theorem C131_who (hsem : env.sem = AnyGen.sem env.R) (hw : Ready env sc ids w) {e1 e2 : List (Int × Event)} {d : Int}
    {j : Nat} {logs : Logs} (h : Played env (sc.chains env) w (e1 ++ (d, .exec j logs) :: e2) w') :
    (∀ id, id ≠ sc.post.logId → tablesOf id logs = []) ∧
    ∃ u, Played env (sc.chains env) w e1 u ∧ (speakers u ids = [] → logs = []) ∧
      (speakers u ids ≠ [] → ∃ t, tablesOf sc.post.logId logs = [t] ∧ t.index = speakers u ids) := by
  obtain ⟨u, u', ops, h1, hi, hx, -, -⟩ := played_at h rfl
  obtain ⟨hu, -⟩ := along hsem h1 hw
  have hd := did hsem hu hi hx
  refine ⟨hd.other, u, h1, fun e => ?_, fun e => ?_⟩
  · rcases hd.spoke with ⟨-, k⟩ | ⟨k, -⟩
    · exact k
    · exact absurd e k
  · rcases hd.spoke with ⟨k, -⟩ | ⟨-, t, k1, -, k3, -⟩
    · exact absurd k e
    · exact ⟨t, k1, k3⟩

/-- **C131** In any run of a script, each record has the six fields and tells of the person it is about: its name, a date
in the step of the clock, "hello world" (script 3) or one of the quotes of the person, never one that it only has with
weight 0 (scripts 4 to 6), and another person with its name: any person, or one of the friends (script 6). -/
theorem C131_records (hsem : env.sem = AnyGen.sem env.R) (hw : Ready env sc ids w) {e1 e2 : List (Int × Event)}
    {d : Int} {j : Nat} {logs : Logs} (h : Played env (sc.chains env) w (e1 ++ (d, .exec j logs) :: e2) w') :
    ∀ t ∈ tablesOf sc.post.logId logs, t.cols = fields ∧
      ∀ i ∈ t.index, Told sc ids w d w.clock.step i (valueAt t i) := by
  obtain ⟨u, u', ops, h1, hi, hx, -, hd⟩ := played_at h rfl
  obtain ⟨hu, hs⟩ := along hsem h1 hw
  intro t ht
  rcases (did hsem hu hi hx).spoke with ⟨-, rfl⟩ | ⟨-, t', k1, k2, -, k4⟩
  · simp [tablesOf] at ht
  · rw [k1, List.mem_singleton] at ht
    subst ht
    exact ⟨k2, fun i hi => by rw [hd]; exact (k4 i hi).back hw.stocks hs⟩

/-- **C131** The populations, the quotes and the friends never change. -/
theorem C131_constant (hsem : env.sem = AnyGen.sem env.R) (hw : Ready env sc ids w)
    (h : Played env (sc.chains env) w evs w') :
    w'.pops = w.pops ∧ ∀ o, ∀ k ∈ sc.post.rels, (relationsAt o w' k).Perm (relationsAt o w k) :=
  ⟨(along hsem h hw).2.pops, (along hsem h hw).2.same hw.stocks⟩

/-- **C131** In script 6, an execution of the story fails as soon as a person whose timer is 0 has no friend. -/
theorem C131_isolated (hsem : env.sem = AnyGen.sem env.R) (hw : Ready env sc ids w) (h6 : sc.post = .six)
    {ops : List (Op (World σ (AnyGen σ)))} (hops : (sc.chains env)[0]? = some ops) {i : Val} (hi : i ∈ ids)
    (ht : timerIn w 0 i = some (some 0)) {o : Orders} (hno : ∀ x ∈ relationsAt o w 1, x.1 ≠ i) :
    ∃ e w', World.execute env ops 0 w = .error e w' := by
  cases hx : World.execute env ops 0 w with
  | error e w' => exact ⟨e, w', rfl⟩
  | ok logs w' =>
    exfalso
    have hsp : i ∈ speakers w ids := List.mem_filter.2 ⟨hi, by simpa using ht⟩
    rcases (did hsem hw hops hx).spoke with ⟨k, -⟩ | ⟨-, t, -, -, k3, k4⟩
    · rw [k] at hsp
      cases hsp
    · obtain ⟨t', -, -, -, h4⟩ := (k4 i (k3 ▸ hsp)).other
      obtain ⟨wt, hm⟩ := h4 h6 o
      exact hno _ hm rfl

/-! ### Scripts 3 and 4: every second step -/

theorem speakers_wait {n : Nat} {q : Rat} (hb : Beats w 0 n ids) (hq : AllWait w 0 q) :
    speakers w ids = if q = 0 then ids else [] := by
  obtain ⟨⟨s, h1, h2, -⟩, -⟩ := hb
  obtain ⟨s', h3, h4⟩ := hq
  rw [h1] at h3
  cases h3
  have ht : ∀ i ∈ ids, timerIn w 0 i = some (some q) := by
    intro i hi
    rw [timerIn, h1, Option.bind_some]
    exact h4 i (h2 ▸ hi)
  rw [speakers]
  split
  · rename_i h0
    rw [List.filter_eq_self]
    intro i hi
    rw [ht i hi, h0]
    simp
  · rename_i h0
    rw [List.filter_eq_nil_iff]
    intro i hi
    rw [ht i hi]
    simpa using h0

theorem blog_all {F Z : Nat → Prop} : ∀ ops ∈ sc.chains env, ∀ op ∈ ops, BuiltIn env F Z op := by
  intro ops ho
  obtain ⟨j, hj⟩ := List.mem_iff_getElem?.1 ho
  exact (blog_builtIn hj).2

/-- **C131** When the timer is the constant 1 (scripts 3 and 4), all the persons send a message at the second execution,
the fourth one, and so on, and nobody does at the others. -/
theorem C131_pace (hsem : env.sem = AnyGen.sem env.R) (hw : Ready env sc ids w) (hb : Beats w 0 1 ids)
    (hq : AllWait w 0 1) {e1 e2 : List (Int × Event)} {d : Int} {j : Nat} {logs : Logs}
    (h : Played env (sc.chains env) w (e1 ++ (d, .exec j logs) :: e2) w') :
    (2 ∣ (execDates 0 e1).length + 1 → ids ≠ [] → ∃ t, tablesOf sc.post.logId logs = [t] ∧ t.index = ids) ∧
    (¬ 2 ∣ (execDates 0 e1).length + 1 → logs = []) := by
  obtain ⟨u, u', ops, h1, hi, hx, -, -⟩ := played_at h rfl
  obtain ⟨hu, -⟩ := along hsem h1 hw
  have hd := did hsem hu hi hx
  obtain ⟨g1, g2⟩ := wait_run blog_all 0 h1 hb (by simpa using hq)
  rw [Nat.zero_add] at g2
  have hsp := speakers_wait g1 g2
  refine ⟨fun h2 hne => ?_, fun h2 => ?_⟩
  · rw [if_pos ((left_zero 1 _).2 h2)] at hsp
    rcases hd.spoke with ⟨k, -⟩ | ⟨-, t, k1, -, k3, -⟩
    · exact absurd (hsp.symm.trans k) hne
    · exact ⟨t, k1, k3.trans hsp⟩
  · rw [if_neg fun h0 => h2 ((left_zero 1 _).1 h0)] at hsp
    rcases hd.spoke with ⟨-, k⟩ | ⟨k, -⟩
    · exact k
    · exact absurd hsp k

/-- **C131** The records of the whole log of a run of scripts 3 and 4: those of all the persons, at every second
execution. -/
theorem C131_log (hsem : env.sem = AnyGen.sem env.R) (hw : Ready env sc ids w) (hb : Beats w 0 1 ids)
    (hq : AllWait w 0 1) (h : Played env (sc.chains env) w evs w') :
    (loggedRows sc.post.logId (emitted evs)).map (·.idx) = (every 2 (execDates 0 evs)).flatMap fun _ => ids := by
  suffices H : ∀ j, AllWait w 0 ((1 - j % (1 + 1) : Nat) : Rat) → (loggedRows sc.post.logId (emitted evs)).map (·.idx) =
      (everyFrom 2 j (execDates 0 evs)).flatMap fun _ => ids from H 0 (by simpa using hq)
  clear hq
  intro j hq
  induction h generalizing j with
  | nil w => rfl
  | @exec w w1 w' l j' ops logs hi h rest ih =>
    have hd := did hsem hw hi h
    obtain ⟨rfl, hmem⟩ := blog_builtIn hi (F := (· ≠ 0)) (Z := (· ≠ 0))
    have hsp := speakers_wait hb hq
    obtain ⟨g1, g2⟩ := wait_self hmem h hb (Nat.cast_nonneg _) hq
    rw [← left_succ] at g2
    have ih := ih (exec_ready hsem hw hi h) g1 (j + 1) g2
    rw [show emitted ((w.clock.current, Event.exec 0 logs) :: l) = logs ++ emitted l from rfl, execDates_self, loggedRows,
      tablesOf_append, List.flatMap_append, List.map_append, everyFrom]
    rw [loggedRows] at ih
    rw [ih]
    by_cases h2 : 2 ∣ j + 1
    · rw [if_pos h2, List.flatMap_cons]
      rw [if_pos ((left_zero 1 _).2 h2)] at hsp
      congr 1
      rcases hd.spoke with ⟨k, rfl⟩ | ⟨-, t, k1, -, k3, -⟩
      · rw [hsp] at k
        rw [k]
        rfl
      · rw [k1, ← hsp, ← k3]
        simp [Frame.index]
    · rw [if_neg h2]
      rw [if_neg fun h0 => h2 ((left_zero 1 _).1 h0)] at hsp
      rcases hd.spoke with ⟨-, rfl⟩ | ⟨k, -⟩
      · rfl
      · exact absurd hsp k
  | @tick w w' l rest ih =>
    rw [execDates_tick]
    exact ih (tick_ready hw) ⟨hb.story, hb.nodup⟩ j hq

/-! ### What is built -/

theorem opened {n : Nat} {g : Parts (AnyGen σ)} {b : SeqGen} {q : Population} {s : Story σ} {k : Int × Int}
    {R : List (List (Val × Val × Rat))} (h0 : 0 ≤ k.2) (hs : Lot env R [q] [s] k w) (hids : q.ids = idsFrom b n)
    (hf : s.idField = "PERSON_ID" ∧ s.ids = q.ids) {a y : Attribute} (hattr : q.attributes = [("NAME", a), ("AGE", y)])
    (ha : (∀ i ∈ idsFrom b n, ∃ x, Holds a i x) ∧ (∀ i x, Holds a i x → i ∈ idsFrom b n) ∧
      ∀ i ∈ idsFrom b n, ∃ x, Holds y i x)
    (hany : sc.post ≠ .six → ∃ x, Began env w sc.choice (.choice q.ids none x))
    (hquotes : sc.post ≠ .three → ∃ L, R[0]? = some L ∧ QuotesGiven (idsFrom b n) L)
    (hfr : sc.post = .six → ∃ L, R[1]? = some L ∧ Mutual (idsFrom b n) L)
    (hp : sc.post = .three ∨ sc.post = .four → Beats w 0 1 (idsFrom b n) ∧ AllWait w 0 1)
    (ht : sc.post = .five ∨ sc.post = .six → s.autoReset = true ∧
      (∃ seed, Began env w s.timerGen (g.timer seed)) ∧
      ∀ i ∈ idsFrom b n, ∃ ps y, s.params.get? i = some ps ∧ ps.get? (.str "default") = some y ∧
        Val.num y.activity ∈ [Val.num 3, .num 10, .num 20])
    (hR : R.length = sc.post.rels.length) (hbeg : Begins s q.ids fun _ => False)
    (hcon : sc.post = .three ∨ sc.post = .four → s.timerGen = .constant (.num 1)) :
    Ready env sc (idsFrom b n) w ∧ Opening n g b env sc w := by
  have hQ : sc.post ≠ .three → ∃ r, w.rels[0]? = some r ∧ Relationship.Reachable env.R r ∧
      ∀ o, QuotesGiven (idsFrom b n) (relationsAt o w 0) := by
    intro h
    obtain ⟨L, hL, q0, q1, q2, q3, e0, e1, e2, e3, hp⟩ := hquotes h
    obtain ⟨r, hr, hw⟩ := forall₂_at' hs.rels hL
    exact ⟨r, hr, hw.1, fun o => ⟨q0, q1, q2, q3, e0, e1, e2, e3, by
      rw [relationsAt_of hr]; exact (hw.2 o).trans hp⟩⟩
  have hF : sc.post = .six → ∃ r, w.rels[1]? = some r ∧ Relationship.Reachable env.R r ∧
      ∀ o, Mutual (idsFrom b n) (relationsAt o w 1) := by
    intro h
    obtain ⟨L, hL, hm⟩ := hfr h
    obtain ⟨r, hr, hw⟩ := forall₂_at' hs.rels hL
    exact ⟨r, hr, hw.1, fun o => hm.perm (by rw [relationsAt_of hr]; exact hw.2 o)⟩
  have hpops : w.pops[0]? = some q := by rw [hs.pops]; rfl
  have hst : w.stories[0]? = some s := by rw [hs.stories]; rfl
  have hwf := hs.wf q (by simp)
  refine ⟨⟨by rw [hs.pops]; exact hs.wf, ⟨q, hpops, hids, fun a' ha' => ?_⟩, ?_, ⟨s, hst, hf.1, hf.2.trans hids⟩, ?_,
    by rw [← hids]; exact hany, ?_, by rw [hs.clock.2]; exact h0⟩,
    ⟨⟨q, hpops, hids, ⟨a, ?_, by rw [hids]; exact ha.1⟩, y, ?_, by rw [hids]; exact ha.2.2⟩, fun h => ?_, fun h => ?_, hp,
      fun h => ?_, by rw [hs.pops]; rfl, hs.rels.length_eq.trans hR, s, hs.stories, hids ▸ hbeg, hcon⟩⟩
  · rw [attributeOf, hattr] at ha'
    have : a' = a := by simpa using ha'
    subst this
    exact ha.2.1
  · simp [idsFrom]
  · intro i hi
    have hi' : i = 0 ∧ sc.post ≠ .three ∨ i = 1 ∧ sc.post = .six := by
      revert hi
      cases sc.post <;> simp [Post.rels]
    rcases hi' with ⟨rfl, h⟩ | ⟨rfl, h⟩
    · obtain ⟨r, h1, h2, -⟩ := hQ h
      exact ⟨r, h1, h2⟩
    · obtain ⟨r, h1, h2, -⟩ := hF h
      exact ⟨r, h1, h2⟩
  · intro h o i hi
    have h3 : sc.post ≠ .three := by
      intro e
      rw [e] at h
      cases h
    obtain ⟨r, -, -, hq⟩ := hQ h3
    have := (hq o).two hi
    rw [held, stockAt_relations, List.countP_map]
    exact this
  · rw [attributeOf, hattr]; simp
  · rw [attributeOf, hattr]; simp
  · obtain ⟨r, -, -, hq⟩ := hQ h
    exact hq
  · obtain ⟨r, -, -, hq⟩ := hF h
    exact fun o => hq o
  · obtain ⟨t1, t2, t3⟩ := ht h
    refine ⟨s, hst, t1, t2, fun i hi => ?_⟩
    obtain ⟨ps, z, e1, e2, e3⟩ := t3 i hi
    exact ⟨ps, z, e1, e2, by simpa using e3⟩

/-- the story of scripts 3 and 4 -/
theorem constant_lot {q : Population} {k : Int × Int} {R : List (List (Val × Val × Rat))} {n : Nat}
    (hs : Lot env R [q] [] k c.world) (h : Circus.createStory env (helloStory 0 none) c = .ok n c') : n = 0 ∧ ∃ s : Story σ,
      s.idField = "PERSON_ID" ∧ s.ids = q.ids ∧ Lot env R [q] [s] k c'.world ∧ Beats c'.world 0 1 q.ids ∧
      AllWait c'.world 0 1 ∧ (Begins s q.ids fun _ => False) ∧ s.timerGen = .constant (.num 1) := by
  obtain ⟨u, h', rfl⟩ := onWorld_ok h
  obtain ⟨rfl, s, h1, h2, h3, -, h5⟩ := lot_createStory hs (p := q) rfl h'
  have hp : c.world.pops[0]? = some q := by rw [hs.pops]; rfl
  obtain ⟨-, hb, hq⟩ := C124_created (c := 1) (a := 1) h' hp (hs.wf q (by simp)).ids rfl rfl rfl rfl one_ne_zero
  exact ⟨rfl, s, h1, h2, h5, hb, by exact_mod_cast hq, first_begins hs h5 rfl rfl h', h3⟩

/-- the story of scripts 5 and 6 -/
theorem active_lot (hsem : env.sem = AnyGen.sem env.R) {q : Population} {k : Int × Int} {R : List (List (Val × Val × Rat))}
    {n : Nat} {t a : GenRef} {x : AnyGen σ} (hs : Lot env R [q] [] k c.world) (ht : Began env c.world t x)
    {l : List Val} {pr : Option (List Rat)} {r : σ} (ha : Began env c.world a (.choice l pr r))
    (h : Circus.createStory env (helloStory 0 (some (t, a))) c = .ok n c') : n = 0 ∧ ∃ s : Story σ,
      s.idField = "PERSON_ID" ∧ s.ids = q.ids ∧ Lot env R [q] [s] k c'.world ∧ s.autoReset = true ∧
      s.timerGen = t ∧ Began env c'.world s.timerGen x ∧
      (∀ i ∈ q.ids, ∃ ps y, s.params.get? i = some ps ∧ ps.get? (.str "default") = some y ∧ Val.num y.activity ∈ l) ∧
      Begins s q.ids fun _ => False := by
  obtain ⟨u, h', rfl⟩ := onWorld_ok h
  obtain ⟨rfl, s, h1, h2, h3, h4, h5⟩ := lot_createStory hs (p := q) rfl h'
  refine ⟨rfl, s, h1, h2, h5, h4, h3, ?_, activities_of hsem hs (p := q) rfl h' rfl ha ?_, first_begins hs h5 rfl rfl h'⟩
  · rw [h3]
    exact (createStory_began h').1 ht
  · rw [h5.stories]
    rfl

/-- **C131** Each script, when it succeeds, builds what the story needs. -/
theorem C131_built (hsem : env.sem = AnyGen.sem env.R) {n : Nat} {g : Parts (AnyGen σ)} {b : SeqGen} (hg : g.Usual b)
    {fmt : Int → Cell} {name : String} {seed start step : Int} (hstep : 0 ≤ step)
    (hnew : Circus.new env.R name seed start step = .ok c) {p : Post} {ops : List (Op (World σ (AnyGen σ)))}
    (h : p.build env n g fmt c = .ok ops c') : c'.world.clock.current = start ∧ c'.world.clock.step = step ∧
      ∃ sc : Scene, sc.post = p ∧ sc.fmt = fmt ∧ [ops] = sc.chains env ∧
      Ready env sc (idsFrom b n) c'.world ∧ Opening n g b env sc c'.world := by
  have hlen : (idsFrom b n).length = n := length_idsFrom _ _
  cases p with
  | three =>
    change threePost env n g fmt c = _ at h
    rw [threePost] at h
    obtain ⟨i, c1, h1, h⟩ := Act.bind_eq_ok.1 h
    obtain ⟨rfl, a, y, a1, a2, a3, s1⟩ := createPersons_lot hsem hg hnew h1
    obtain ⟨own, c2, h2, h⟩ := Act.bind_eq_ok.1 h
    obtain ⟨rfl, s, e1, e2, s2, hb, hq, hbe, hcon⟩ := constant_lot s1 h2
    obtain ⟨r, c3, h3, h⟩ := Act.bind_eq_ok.1 h
    obtain ⟨u3, h3', rfl⟩ := onWorld_ok h3
    obtain ⟨s3, -, b3⟩ := choiceIn_lot hg rfl s2 h3'
    obtain ⟨rfl, rfl⟩ := Act.pure_eq_ok.1 h
    refine ⟨s3.clock.1, s3.clock.2, ⟨.three, r, fmt⟩, rfl, rfl, rfl, opened hstep s3 rfl ⟨e1, e2⟩ rfl ⟨a1, a2, a3⟩
      (fun _ => b3) (by simp) (by simp) (fun _ => acting_same (s3.stories.trans s2.stories.symm) ⟨hb, hq⟩) (by simp)
      rfl hbe (fun _ => hcon)⟩
  | four =>
    change fourPost env n g fmt c = _ at h
    rw [fourPost] at h
    obtain ⟨i, c1, h1, h⟩ := Act.bind_eq_ok.1 h
    obtain ⟨rfl, a, y, a1, a2, a3, s1⟩ := createPersons_lot hsem hg hnew h1
    obtain ⟨x0, c0, h0, h⟩ := Act.bind_eq_ok.1 h
    obtain ⟨u0, h0', rfl⟩ := onWorld_ok h0
    obtain ⟨L, hL, s0⟩ := addQuotes_lot hsem rfl hlen s1 h0'
    replace s0 : Lot env [L] [⟨idsFrom b n, n, [("NAME", a), ("AGE", y)], [("quotes", 0)]⟩] [] (start, step) u0 := s0
    obtain ⟨own, c2, h2, h⟩ := Act.bind_eq_ok.1 h
    obtain ⟨rfl, s, e1, e2, s2, hb, hq, hbe, hcon⟩ := constant_lot (c := { c1 with world := u0 }) s0 h2
    obtain ⟨rel, c4, h4, h⟩ := Act.bind_eq_ok.1 h
    obtain ⟨u4, h4', rfl⟩ := onWorld_ok h4
    obtain ⟨rfl, e4⟩ := relNamed_lot rfl s2 h4'
    obtain rfl : (0 : Nat) = rel := Option.some.inj e4
    obtain ⟨r, c3, h3, h⟩ := Act.bind_eq_ok.1 h
    obtain ⟨u3, h3', rfl⟩ := onWorld_ok h3
    obtain ⟨s3, -, b3⟩ := choiceIn_lot hg rfl s2 h3'
    obtain ⟨rfl, rfl⟩ := Act.pure_eq_ok.1 h
    refine ⟨s3.clock.1, s3.clock.2, ⟨.four, r, fmt⟩, rfl, rfl, rfl, opened hstep s3 rfl ⟨e1, e2⟩ rfl ⟨a1, a2, a3⟩
      (fun _ => b3) (fun _ => ⟨L, rfl, hL⟩) (by simp)
      (fun _ => acting_same (s3.stories.trans s2.stories.symm) ⟨hb, hq⟩) (by simp)
      rfl hbe (fun _ => hcon)⟩
  | five =>
    change fivePost env n g fmt c = _ at h
    rw [fivePost] at h
    obtain ⟨i, c1, h1, h⟩ := Act.bind_eq_ok.1 h
    obtain ⟨rfl, a, y, a1, a2, a3, s1⟩ := createPersons_lot hsem hg hnew h1
    obtain ⟨x0, c0, h0, h⟩ := Act.bind_eq_ok.1 h
    obtain ⟨u0, h0', rfl⟩ := onWorld_ok h0
    obtain ⟨L, hL, s0⟩ := addQuotes_lot hsem rfl hlen s1 h0'
    replace s0 : Lot env [L] [⟨idsFrom b n, n, [("NAME", a), ("AGE", y)], [("quotes", 0)]⟩] [] (start, step) u0 := s0
    obtain ⟨⟨t, act⟩, c5, h5, h⟩ := Act.bind_eq_ok.1 h
    obtain ⟨u5, h5', rfl⟩ := onWorld_ok h5
    obtain ⟨s5, ⟨seed5, b5⟩, pr, x5, d5⟩ := addActivity_lot (w := u0) hg s0 h5'
    obtain ⟨own, c2, h2, h⟩ := Act.bind_eq_ok.1 h
    obtain ⟨rfl, s, e1, e2, s2, auto, -, tb, hact, hbe⟩ := active_lot (c := { c1 with world := u5 }) hsem s5 b5 d5 h2
    obtain ⟨rel, c4, h4, h⟩ := Act.bind_eq_ok.1 h
    obtain ⟨u4, h4', rfl⟩ := onWorld_ok h4
    obtain ⟨rfl, e4⟩ := relNamed_lot rfl s2 h4'
    obtain rfl : (0 : Nat) = rel := Option.some.inj e4
    obtain ⟨r, c3, h3, h⟩ := Act.bind_eq_ok.1 h
    obtain ⟨u3, h3', rfl⟩ := onWorld_ok h3
    obtain ⟨s3, f3, b3⟩ := choiceIn_lot hg rfl s2 h3'
    obtain ⟨rfl, rfl⟩ := Act.pure_eq_ok.1 h
    refine ⟨s3.clock.1, s3.clock.2, ⟨.five, r, fmt⟩, rfl, rfl, rfl, opened hstep s3 rfl ⟨e1, e2⟩ rfl ⟨a1, a2, a3⟩
      (fun _ => b3) (fun _ => ⟨L, rfl, hL⟩) (by simp) (by simp) (fun _ => ⟨auto, ⟨seed5, f3 tb⟩, hact⟩) rfl hbe (by simp)⟩
  | six =>
    change sixPost env n g fmt c = _ at h
    rw [sixPost] at h
    obtain ⟨i, c1, h1, h⟩ := Act.bind_eq_ok.1 h
    obtain ⟨rfl, a, y, a1, a2, a3, s1⟩ := createPersons_lot hsem hg hnew h1
    obtain ⟨x0, c0, h0, h⟩ := Act.bind_eq_ok.1 h
    obtain ⟨u0, h0', rfl⟩ := onWorld_ok h0
    obtain ⟨L, hL, s0⟩ := addQuotes_lot hsem rfl hlen s1 h0'
    replace s0 : Lot env [L] [⟨idsFrom b n, n, [("NAME", a), ("AGE", y)], [("quotes", 0)]⟩] [] (start, step) u0 := s0
    obtain ⟨x6, c6, h6, h⟩ := Act.bind_eq_ok.1 h
    obtain ⟨u6, h6', rfl⟩ := onWorld_ok h6
    obtain ⟨M, hM, s6⟩ := er_lot (w := u0) hg.graph rfl s0 h6'
    replace s6 : Lot env [L, M] [⟨idsFrom b n, n, [("NAME", a), ("AGE", y)], [("quotes", 0), ("friends", 1)]⟩] []
      (start, step) u6 := s6
    obtain ⟨⟨t, act⟩, c5, h5, h⟩ := Act.bind_eq_ok.1 h
    obtain ⟨u5, h5', rfl⟩ := onWorld_ok h5
    obtain ⟨s5, ⟨seed5, b5⟩, pr, x5, d5⟩ := addActivity_lot (w := u6) hg s6 h5'
    obtain ⟨own, c2, h2, h⟩ := Act.bind_eq_ok.1 h
    obtain ⟨rfl, s, e1, e2, s2, auto, -, tb, hact, hbe⟩ := active_lot (c := { c1 with world := u5 }) hsem s5 b5 d5 h2
    obtain ⟨rel, c4, h4, h⟩ := Act.bind_eq_ok.1 h
    obtain ⟨u4, h4', rfl⟩ := onWorld_ok h4
    obtain ⟨rfl, e4⟩ := relNamed_lot rfl s2 h4'
    obtain rfl : (0 : Nat) = rel := Option.some.inj e4
    obtain ⟨fr, c3, h3, h⟩ := Act.bind_eq_ok.1 h
    obtain ⟨u3, h3', rfl⟩ := onWorld_ok h3
    obtain ⟨rfl, e3⟩ := relNamed_lot rfl s2 h3'
    obtain rfl : (1 : Nat) = fr := Option.some.inj e3
    obtain ⟨rfl, rfl⟩ := Act.pure_eq_ok.1 h
    refine ⟨s2.clock.1, s2.clock.2, ⟨.six, .ref 0, fmt⟩, rfl, rfl, rfl, opened hstep s2 rfl ⟨e1, e2⟩ rfl ⟨a1, a2, a3⟩
      (by simp) (fun _ => ⟨L, rfl, hL⟩) (fun _ => ⟨M, rfl, hM⟩) (by simp) (fun _ => ⟨auto, ⟨seed5, tb⟩, hact⟩) rfl hbe (by simp)⟩

/-- **C131** Any run of a script, from the creation of the circus to the end: the log files hold what a run of the
operations logs, from a world that has what the script says. With the scripts 3 and 4, those are the records of all the
persons at every second step of the clock. -/
theorem C131_run (hsem : env.sem = AnyGen.sem env.R) {n : Nat} {g : Parts (AnyGen σ)} {b : SeqGen} (hg : g.Usual b)
    {fmt : Int → Cell} {name : String} {seed start step : Int} (hstep : 0 < step)
    (hnew : Circus.new env.R name seed start step = .ok c) {p : Post} {ops : List (Op (World σ (AnyGen σ)))}
    (hbuild : p.build env n g fmt c = .ok ops c') {text : Cell → Text} {folder : Path} (so : SetOrder String)
    (fuel d : Nat) (duration : Int) (delete : Bool) {fs : FS} {s' : Sys σ (AnyGen σ)} (ht : Tree fs)
    (hd : DepthBelow fs folder d) (hfuel : d < fuel)
    (h : Sys.run env text folder so fuel [ops] duration delete ⟨c', fs⟩ = .ok () s') :
    ∃ (sc : Scene) (total : Nat) (events : List (Int × Event)) (fs0 : FS), sc.post = p ∧ sc.fmt = fmt ∧
      (0 ≤ duration → c'.world.clock.nIterations duration = .ok total) ∧
      Opening n g b env sc c'.world ∧ Ready env sc (idsFrom b n) c'.world ∧
      Played env (sc.chains env) c'.world events s'.circus.world ∧ LogsWritten text folder fs0 (emitted events) s'.fs ∧
      execDates 0 events = (List.range total).map (fun k : Nat => start + (k : Int) * step) ∧
      (p = .three ∨ p = .four → (loggedRows p.logId (emitted events)).map (·.idx) =
        (every 2 (List.range total)).flatMap fun _ => idsFrom b n) := by
  obtain ⟨e1, e2, sc, k1, k2, k3, k4, k5⟩ := C131_built hsem hg hstep.le hnew hbuild
  rw [k3] at h
  have hk : ∀ ops ∈ sc.chains env, ∀ op ∈ ops, KeepsDate op := fun ops ho op hop =>
    C59_builtIn_keepsDate op (blog_all (F := (· ≠ 0)) (Z := (· ≠ 0)) ops ho op hop)
  obtain ⟨total, events, fs0, h0, h1, h2, -, -, h3⟩ := C60_logs so fuel d duration delete ⟨c', fs⟩ s' hk ht hd hfuel h
  have h0 : c'.world.clock.nIterations duration = .ok total := h0
  have h2 : events.map (fun e => (e.1, e.2.story)) =
      schedule c'.world.clock.current c'.world.clock.step total.toNat (sc.chains env).length := h2
  have hdates := Shop.execDates_schedule (i := 0) (by simp [Scene.chains]) h2
  rw [e1, e2] at hdates
  refine ⟨sc, total.toNat, events, fs0, k1, k2, fun hdur => ?_, k5, k4, h1, h3, hdates, fun hp => ?_⟩
  · obtain ⟨m, q1, q2, -⟩ := C09_n_iterations c'.world.clock duration (by rw [e2]; exact hstep) hdur
    rw [h0] at q1 ⊢
    cases q1
    rw [Int.toNat_of_nonneg q2]
  · obtain ⟨hb, hq⟩ := k5.paced (by rw [k1]; exact hp)
    have hm : ∀ (f : Nat → Int) (j : Nat) (l : List Nat), everyFrom 2 j (l.map f) = (everyFrom 2 j l).map f := by
      intro f j l
      induction l generalizing j with
      | nil => rfl
      | cons x l ih =>
        rw [List.map_cons, everyFrom, everyFrom]
        split
        · rw [ih, List.map_cons]
        · exact ih _
    rw [← k1, C131_log hsem k4 hb hq h1, hdates, every, hm, List.flatMap_map]
    rfl

/-! ### Non-vacuity -/

def exParts : Parts (AnyGen Nat) where
  personIds := .seq ⟨0, "PERSON_", 3⟩
  ages seed := .uniform 3 5 (Rng.counter.seed seed)
  names seed := .choice [.str "A", .str "B", .str "C"] none (Rng.counter.seed seed)
  quotes seed := .choice [.str "I see.", .str "Why?", .str "Maybe.", .str "No.", .str "Yes."] none (Rng.counter.seed seed)
  timer seed := .cyclic ⟨Rng.counter.seed seed, 1, [(0, 1)]⟩
  choice l p seed := .choice l p (Rng.counter.seed seed)
  graph n _ _ := if n = 3 then [(0, 1), (2, 0)] else []

theorem exUsual : exParts.Usual ⟨0, "PERSON_", 3⟩ := by
  refine ⟨rfl, fun _ _ _ => ⟨_, rfl⟩, fun n q seed => ?_⟩
  show SimpleGraph n (if n = 3 then [(0, 1), (2, 0)] else [])
  split
  · rename_i h
    subst h
    exact ⟨by decide, by decide, by decide, by decide⟩
  · exact ⟨by simp, by simp, by simp, by simp⟩

def exFmt : Int → Cell := fun d => .num d

def exBuild (p : Post) (n : Nat) : Option (List (Op (World Nat (AnyGen Nat))) × Circus Nat (AnyGen Nat)) :=
  match Circus.new Rng.counter "hello_world" 1234 0 (3600 * nsPerSec) with
  | .ok c => match p.build Trumania.exEnv n exParts exFmt c with
    | .ok ops c' => some (ops, c')
    | .error _ _ => none
  | .error _ => none

/-- some fields of the records of a run of two steps of the clock -/
def exRecords (p : Post) (n : Nat) : Option (List (List Cell)) :=
  (exBuild p n).bind fun x => (Snd.play exEnv [x.1] [some 0, none, some 0, none] x.2.world).map fun r =>
    (tablesOf p.logId (emitted r.1)).flatMap fun t => t.rows.map fun r => ["PERSON_ID", "MESSAGE", "OTHER_PERSON",
      "EMITTER_NAME", "RECEIVER_NAME"].map (cell t r)

/-- in script 4, two steps of the clock, and a person may write to itself -/
theorem exFour : exRecords .four 2 = some
    [[.str "PERSON_000", .str "Yes.", .str "PERSON_000", .str "B", .str "B"],
     [.str "PERSON_001", .str "Why?", .str "PERSON_001", .str "C", .str "C"]] := by decide +kernel

/-- in script 6, two steps of the clock -/
theorem exSix : (exRecords .six 3).map (·.take 4) = some
    [[.str "PERSON_000", .str "Maybe.", .str "PERSON_001", .str "B", .str "C"],
     [.str "PERSON_001", .str "Maybe.", .str "PERSON_000", .str "C", .str "B"],
     [.str "PERSON_002", .str "No.", .str "PERSON_000", .str "A", .str "B"],
     [.str "PERSON_000", .str "Yes.", .str "PERSON_001", .str "B", .str "C"]] := by decide +kernel

/-- among four persons, nobody has a friend: the run of script 6 fails -/
theorem exAlone : (exBuild .six 4).isSome ∧ exRecords .six 4 = none := by decide +kernel

/-- the hypotheses of C131 hold of a run of each script -/
theorem exHolds {p : Post} {n : Nat} {l : List (List Cell)} (h : exRecords p n = some l) (hl : l ≠ []) :
    ∃ (sc : Scene) (c c' : Circus Nat (AnyGen Nat)) (evs : List (Int × Event)) (w' : World Nat (AnyGen Nat)),
      sc.post = p ∧ Circus.new Trumania.exEnv.R "hello_world" 1234 0 (3600 * nsPerSec) = .ok c ∧
      Ready Trumania.exEnv sc (idsFrom ⟨0, "PERSON_", 3⟩ n) c'.world ∧
      Opening n exParts ⟨0, "PERSON_", 3⟩ Trumania.exEnv sc c'.world ∧
      Played Trumania.exEnv (sc.chains Trumania.exEnv) c'.world evs w' ∧ tablesOf p.logId (emitted evs) ≠ [] := by
  obtain ⟨⟨ops, c'⟩, h1, h2⟩ := Option.bind_eq_some_iff.1 h
  obtain ⟨⟨evs, w'⟩, h3, h4⟩ := Option.map_eq_some_iff.1 h2
  rw [exBuild] at h1
  split at h1
  · rename_i c hc
    split at h1
    · rename_i hb
      cases h1
      obtain ⟨-, -, sc, k0, -, k1, k2, k3⟩ := C131_built (env := Trumania.exEnv) rfl exUsual (by decide) hc hb
      refine ⟨sc, c, _, evs, w', k0, hc, k2, k3, ?_, fun e => ?_⟩
      · rw [← k1]
        exact Snd.play_played h3
      · simp only [e] at h4
        exact hl h4.symm
    · cases h1
  · cases h1

example := exHolds exFour (by decide)

end Blog
end Trumania
