import Verif.Proofs.Kinds
import Verif.Proofs.HelloBuild

/-!
# C127: what the records of examples/tutorial/example1.py tell
-/

namespace Trumania
namespace Hello
open Spec World Circus Cdr
open Shop (onWorld_ok played_at tablesOf_append)
open Music (length_idsFrom table_new)
variable {σ : Type} {env : Env σ (AnyGen σ)} {w w' : World σ (AnyGen σ)} {sc : Scene} {evs : List (Int × Event)}
  {c c' : Circus σ (AnyGen σ)} {all ids : List Val}

/-- what never changes -/
structure Fixed (env : Env σ (AnyGen σ)) (S : List Nat) (w w' : World σ (AnyGen σ)) : Prop where
  pops : w'.pops = w.pops
  ok : StocksOk env S w → StocksOk env S w'
  same : StocksOk env S w → ∀ o, ∀ k ∈ S, (stockAt o w' k).Perm (stockAt o w k)
  step : w'.clock.step = w.clock.step

theorem along (hsem : env.sem = AnyGen.sem env.R) (h : Played env (sc.chains env) w evs w') (hw : Ready env sc all ids w) :
    Ready env sc all ids w' ∧ Fixed env sc.step.rels w w' := by
  induction h with
  | nil w => exact ⟨hw, rfl, id, fun _ _ _ _ => .refl _, rfl⟩
  | exec hi h rest ih =>
    have hd := (did hsem hw hi h).still
    obtain ⟨k1, k2⟩ := ih (exec_ready hsem hw hi h)
    exact ⟨k1, k2.pops.trans hd.pops, fun h => k2.ok (hd.ok h),
      fun h o k hk => (k2.same (hd.ok h) o k hk).trans (hd.same h o k hk), k2.step.trans hd.step⟩
  | tick rest ih =>
    obtain ⟨k1, k2⟩ := ih (tick_ready hw)
    exact ⟨k1, k2.pops, k2.ok, k2.same, k2.step⟩

theorem Fixed.held {S : List Nat} (h : Fixed env S w w') (hw : StocksOk env S w) (o : Orders) {k : Nat} (hk : k ∈ S) (i : Val) :
    held o w' k i = held o w k i := by
  rw [Spec.held, Spec.held]
  exact (h.same hw o k hk).countP_eq _

theorem Fixed.speakers (h : Fixed env sc.step.rels w w') (hw : StocksOk env sc.step.rels w) (o : Orders) :
    sc.speakers o w' ids = sc.speakers o w ids := by
  rw [Scene.speakers, Scene.speakers]
  refine List.filter_congr fun i _ => decide_eq_decide.2 ⟨fun hi hk => ?_, fun hi hk => ?_⟩
  · rw [← h.held hw o hk]
    exact hi hk
  · rw [h.held hw o hk]
    exact hi hk

theorem Told.back {d : Int} {i : Val} {g : String → Cell} (hw : StocksOk env sc.step.rels w)
    (hs : Fixed env sc.step.rels w w') (h : Told sc all w' d w'.clock.step i sc.step.fields g) :
    Told sc all w d w.clock.step i sc.step.fields g := by
  have hv : ∀ {n s c}, ValueOf w' 0 n s c → ValueOf w 0 n s c := fun {n s c} h => by
    rw [ValueOf, hs.pops] at h
    exact h
  have hk : ∀ {f : String}, f ∈ sc.step.fields → (f = "SITE" → sc.step ≠ .three → 0 ∈ sc.step.rels) ∧
      (f = "COUNTERPART_ID" → 1 ∈ sc.step.rels) ∧ (f = "COUNTERPART_SITE" → 0 ∈ sc.step.rels) := by
    intro f hf
    generalize sc.step = st at hf
    refine ⟨?_, ?_, ?_⟩ <;> rintro rfl <;> revert hf <;> cases st <;> decide
  refine ⟨h.person, fun hm => hv (h.name hm), h.hello, fun hm => ?_, fun hm => ?_, fun hm => ?_, fun hm => ?_, h.price,
    h.currency, fun hm => ?_⟩
  · obtain ⟨t, h1, h2⟩ := h.site hm
    refine ⟨t, h1, ?_⟩
    split at h2
    · rename_i e
      rw [if_pos e]
      exact h2
    · rename_i e
      rw [if_neg e]
      exact fun o => (hs.same hw o 0 ((hk hm).1 rfl e)).mem_iff.1 (h2 o)
  · obtain ⟨t, h1, h2⟩ := h.friend hm
    have h3 := (hk hm).2.1 rfl
    refine ⟨t, h1, fun o => ⟨(hs.same hw o 1 h3).mem_iff.1 (h2 o).1, fun h4 => (h2 o).2 ?_⟩⟩
    rw [hs.held hw o h3]
    exact h4
  · obtain ⟨t, h1, h2⟩ := h.friendName hm
    exact ⟨t, h1, hv h2⟩
  · obtain ⟨t, u, h1, h2, h3⟩ := h.friendSite hm
    exact ⟨t, u, h1, h2, fun o => (hs.same hw o 0 ((hk hm).2.2 rfl)).mem_iff.1 (h3 o)⟩
  · rw [← hs.step]
    exact h.time hm

/-! ### The records of a run -/

/-- **C127** In any run of a step, an execution of the story writes only in the log "hello": one table, with one record
for each person, in order; in steps 6 and 7, for each person that has a friend. If there are no persons, it writes
nothing. -/
theorem C127_who (hsem : env.sem = AnyGen.sem env.R) (hw : Ready env sc all ids w) {e1 e2 : List (Int × Event)} {d : Int}
    {j : Nat} {logs : Logs} (h : Played env (sc.chains env) w (e1 ++ (d, .exec j logs) :: e2) w') :
    (∀ id, id ≠ "hello" → tablesOf id logs = []) ∧
    (ids = [] ∧ logs = [] ∨ ∃ t, tablesOf "hello" logs = [t] ∧ t.index.Nodup ∧ ∀ o, t.index = sc.speakers o w ids) := by
  obtain ⟨u, u', ops, h1, hi, hx, -, -⟩ := played_at h rfl
  obtain ⟨hu, hs⟩ := along hsem h1 hw
  have hd := did hsem hu hi hx
  refine ⟨hd.other, hd.spoke.imp_right ?_⟩
  rintro ⟨t, k1, -, k3, k4, -⟩
  exact ⟨t, k1, k3, fun o => (k4 o).trans (hs.speakers hw.stocks o)⟩

/-- **C127** In any run of a step, each record has the fields of the step, and tells of the person it is about: its name,
one of its sites (any site in step 3), a friend with its name and one of its sites, the price for the duration, and a
date in the step of the clock: all of them as they are in the beginning. A friend whose popularity is 0 is only called
by those that have no other one. -/
theorem C127_records (hsem : env.sem = AnyGen.sem env.R) (hw : Ready env sc all ids w) {e1 e2 : List (Int × Event)}
    {d : Int} {j : Nat} {logs : Logs} (h : Played env (sc.chains env) w (e1 ++ (d, .exec j logs) :: e2) w') :
    ∀ t ∈ tablesOf "hello" logs, t.cols = sc.step.fields ∧
      ∀ i ∈ t.index, Told sc all w d w.clock.step i sc.step.fields (valueAt t i) := by
  obtain ⟨u, u', ops, h1, hi, hx, -, hd⟩ := played_at h rfl
  obtain ⟨hu, hs⟩ := along hsem h1 hw
  intro t ht
  rcases (did hsem hu hi hx).spoke with ⟨-, rfl⟩ | ⟨t', k1, k2, -, -, k4⟩
  · simp [tablesOf] at ht
  · rw [k1, List.mem_singleton] at ht
    subst ht
    exact ⟨k2, fun i hi => by rw [hd]; exact (k4 i hi).back hw.stocks hs⟩

/-- **C127** The populations, the sites of the persons and their friends never change. -/
theorem C127_constant (hsem : env.sem = AnyGen.sem env.R) (hw : Ready env sc all ids w)
    (h : Played env (sc.chains env) w evs w') :
    w'.pops = w.pops ∧ ∀ o, ∀ k ∈ sc.step.rels, (stockAt o w' k).Perm (stockAt o w k) :=
  ⟨(along hsem h hw).2.pops, (along hsem h hw).2.same hw.stocks⟩

/-- **C127** The records of the whole log: at each execution, those of the same persons. -/
theorem C127_log (hsem : env.sem = AnyGen.sem env.R) (hw : Ready env sc all ids w)
    (h : Played env (sc.chains env) w evs w') (o : Orders) :
    (loggedRows "hello" (emitted evs)).map (·.idx) = (execDates 0 evs).flatMap fun _ => sc.speakers o w ids := by
  induction h with
  | nil w => rfl
  | @exec w w1 w' l j ops logs hi h rest ih =>
    have hd := did hsem hw hi h
    have ih := ih (exec_ready hsem hw hi h)
    have hf : Fixed env sc.step.rels w w1 := ⟨hd.still.pops, hd.still.ok, hd.still.same, hd.still.step⟩
    obtain ⟨rfl, -⟩ := hello_builtIn hi (F := fun _ => True) (Z := fun _ => True)
    have e1 : emitted ((w.clock.current, Event.exec 0 logs) :: l) = logs ++ emitted l := rfl
    have e2 : execDates 0 ((w.clock.current, Event.exec 0 logs) :: l) = w.clock.current :: execDates 0 l := rfl
    rw [e1, e2, loggedRows, tablesOf_append, List.flatMap_append, List.map_append, List.flatMap_cons]
    congr 1
    · rcases hd.spoke with ⟨rfl, rfl⟩ | ⟨t, k1, -, -, k4, -⟩
      · rfl
      · rw [k1, ← k4 o]
        simp [Frame.index]
    · rw [← loggedRows, ih]
      refine List.flatMap_congr fun _ _ => hf.speakers hw.stocks o
  | @tick w w' l rest ih =>
    have ih := ih (tick_ready hw)
    exact ih

/-! ### What is built -/

/-- the persons, with their names -/
theorem named_lot (hsem : env.sem = AnyGen.sem env.R) {p : Params} {g : Parts (AnyGen σ)}
    {b : SeqGen} {i : Nat} {u : Unit} {c1 : Circus σ (AnyGen σ)} (hg : g.Usual b) {name : String} {seed start step : Int}
    (hnew : Circus.new env.R name seed start step = .ok c) (h : createPersons env p g c = .ok i c1)
    (h1 : onWorld (addAttribute env i "NAME" g.names) c1 = .ok u c') : i = 0 ∧ ∃ a,
      (∀ i ∈ idsFrom b p.nPersons, ∃ x, Holds a i x) ∧
      Lot env [] [⟨idsFrom b p.nPersons, p.nPersons, [("NAME", a)], []⟩] [] (start, step) c'.world := by
  obtain ⟨rfl, s0⟩ := createPersons_lot hsem hg hnew h
  obtain ⟨u1, h1', rfl⟩ := onWorld_ok h1
  obtain ⟨q, a, values, hq, ha, s1⟩ := addAttribute_lot s0 h1'
  cases hq
  have hz : p.nPersons = 0 → idsFrom b p.nPersons = [] := fun e => by rw [e]; rfl
  exact ⟨rfl, a, (new_holds ha hz).1, s1⟩

theorem first_begins {q : Population} {k : Int × Int} {R : List (List (Val × Val × Rat))} {s : Story σ}
    {cfg : StoryConfig} (hs : Lot env R [q] [] k w) (hs' : Lot env R [q] [s] k w') (hp : cfg.population = 0)
    (hst : cfg.states = none) (h : World.createStory env cfg w = .ok 0 w') : Begins s q.ids fun _ => False := by
  obtain ⟨s', h1, h2⟩ := createStory_begins (p := q) (by rw [hp, hs.pops]; rfl) (hs.wf q (by simp)).ids h
  rw [hs'.stories] at h1
  cases h1
  exact ⟨h2.members, h2.default, fun i hi st hst => h2.params i hi st (hst.imp_right False.elim)⟩

theorem createStory_lot {R : List (List (Val × Val × Rat))} {q : Population} {k : Int × Int} {n : Nat}
    (hs : Lot env R [q] [] k c.world) (h : Circus.createStory env (helloStory 0) c = .ok n c') : n = 0 ∧ ∃ s : Story σ,
      s.idField = "PERSON_ID" ∧ Lot env R [q] [s] k c'.world ∧ (Beats c'.world 0 0 q.ids ∧ AllWait c'.world 0 0) ∧
      (Begins s q.ids fun _ => False) ∧ s.timerGen = .constant (.num 0) := by
  obtain ⟨u, h', rfl⟩ := onWorld_ok h
  obtain ⟨rfl, s, h1, h2, h3, h4, h5⟩ := lot_createStory hs rfl h'
  exact ⟨rfl, s, h1, h2, ⟨h3, h4⟩, first_begins hs h2 rfl rfl h', h5⟩

theorem acting_same {i q : Nat} (h : w'.stories = w.stories) (ha : Beats w i q ids ∧ AllWait w i q) :
    Beats w' i q ids ∧ AllWait w' i q := by
  obtain ⟨⟨⟨s, h1, h2⟩, h3⟩, s', h4, h5⟩ := ha
  exact ⟨⟨⟨s, h ▸ h1, h2⟩, h3⟩, s', h ▸ h4, h5⟩

/-- **C127** Each step, when it succeeds, builds what the story needs. -/
theorem C127_built (hsem : env.sem = AnyGen.sem env.R) {p : Params} {g : Parts (AnyGen σ)} {b : SeqGen} (hg : g.Usual b)
    {fmt : Int → Cell} {name : String} {seed start step : Int} (hstep : 0 ≤ step)
    (hnew : Circus.new env.R name seed start step = .ok c) {st : Step} {ops : List (Op (World σ (AnyGen σ)))}
    (h : st.build env p g fmt c = .ok ops c') : c'.world.clock.current = start ∧ c'.world.clock.step = step ∧
      ∃ sc : Scene, sc.step = st ∧ sc.fmt = fmt ∧ [ops] = sc.chains env ∧
      Ready env sc (idsFrom g.siteIds p.nSites) (idsFrom b p.nPersons) c'.world ∧ Opening p g b env sc c'.world := by
  have h45 : ∀ st, st = .four ∨ st = .five → step45 env st p g fmt c = .ok ops c' →
      c'.world.clock.current = start ∧ c'.world.clock.step = step ∧
      ∃ sc : Scene, sc.step = st ∧ sc.fmt = fmt ∧ [ops] = sc.chains env ∧
      Ready env sc (idsFrom g.siteIds p.nSites) (idsFrom b p.nPersons) c'.world ∧ Opening p g b env sc c'.world := by
    intro st hst h
    rw [step45] at h
    obtain ⟨i, c1, h1, h⟩ := Act.bind_eq_ok.1 h
    obtain ⟨u, c2, h2, h⟩ := Act.bind_eq_ok.1 h
    obtain ⟨rfl, a, ha, s2⟩ := named_lot hsem hg hnew h1 h2
    obtain ⟨r, c3, h3, h⟩ := Act.bind_eq_ok.1 h
    obtain ⟨u3, h3', rfl⟩ := onWorld_ok h3
    obtain ⟨rfl, L, hL, s3⟩ := addSites_lot hsem hg rfl (length_idsFrom _ _) s2 h3'
    obtain ⟨own, c4, h4, h⟩ := Act.bind_eq_ok.1 h
    obtain ⟨rfl, s, hf, s4, hact, hbe⟩ := createStory_lot (c := { c2 with world := u3 }) s3 h4
    obtain ⟨d, c5, h5, h⟩ := Act.bind_eq_ok.1 h
    obtain ⟨u5, h5', rfl⟩ := onWorld_ok h5
    have s5 := lot_seeded s4 h5'
    obtain ⟨-, -, seed5, b5⟩ := Shop.after_seeded (env := env) h5'
    obtain ⟨rfl, rfl⟩ := Act.pure_eq_ok.1 h
    refine ⟨s5.clock.1, s5.clock.2, ⟨st, d, .ref 0, [], fmt⟩, rfl, rfl, ?_, opened hstep s5 hf ?_ rfl ?_ ?_ ?_ ?_ ?_
      (fun _ _ => ⟨seed5, b5⟩) (by rcases hst with rfl | rfl <;> rfl) hbe⟩
    · rcases hst with rfl | rfl <;> rfl
    · exact acting_same (s5.stories.trans s4.stories.symm) hact
    · exact fun _ => ⟨a, by simp [attributeOf], ha⟩
    · intro h1
      rcases hst with rfl | rfl <;> simp [Step.rels] at h1
    · intro h1
      rcases hst with rfl | rfl <;> cases h1
    · exact fun _ => ⟨L, rfl, weights_eq st ▸ hL⟩
    · intro h1
      rcases hst with rfl | rfl <;> simp [Step.rels] at h1
  have h67 : ∀ st, st = .six ∨ st = .seven → step67 env st p g fmt c = .ok ops c' →
      c'.world.clock.current = start ∧ c'.world.clock.step = step ∧
      ∃ sc : Scene, sc.step = st ∧ sc.fmt = fmt ∧ [ops] = sc.chains env ∧
      Ready env sc (idsFrom g.siteIds p.nSites) (idsFrom b p.nPersons) c'.world ∧ Opening p g b env sc c'.world := by
    intro st hst h
    rw [step67] at h
    obtain ⟨i, c1, h1, h⟩ := Act.bind_eq_ok.1 h
    obtain ⟨u, c2, h2, h⟩ := Act.bind_eq_ok.1 h
    obtain ⟨rfl, a, ha, s2⟩ := named_lot hsem hg hnew h1 h2
    obtain ⟨u0, c0, h0, h⟩ := Act.bind_eq_ok.1 h
    obtain ⟨w0, h0', rfl⟩ := onWorld_ok h0
    obtain ⟨q, y, values, hq, hy, s0⟩ := addAttribute_lot s2 h0'
    cases hq
    replace s0 : Lot env [] [⟨idsFrom b p.nPersons, p.nPersons, [("NAME", a), ("POPULARITY", y)], []⟩] []
      (start, step) w0 := s0
    have hz : p.nPersons = 0 → idsFrom b p.nPersons = [] := fun e => by rw [e]; rfl
    have hyh := new_holds hy hz
    have hone : OneValueEach y := by
      rw [OneValueEach, table_new hy hz]
      by_cases e : p.nPersons = 0
      · rw [hz e]
        simp
      · rw [List.map_fst_zip (((hyh.2.2) e).1.ge)]
        exact idsFrom_nodup _ _
    obtain ⟨r, c3, h3, h⟩ := Act.bind_eq_ok.1 h
    obtain ⟨u3, h3', rfl⟩ := onWorld_ok h3
    obtain ⟨rfl, L, hL, s3⟩ := addSites_lot (w := w0) hsem hg rfl (length_idsFrom _ _) s0 h3'
    replace s3 : Lot env [L] [⟨idsFrom b p.nPersons, p.nPersons, [("NAME", a), ("POPULARITY", y)], [("sites", 0)]⟩] []
      (start, step) u3 := s3
    obtain ⟨r', c6, h6, h⟩ := Act.bind_eq_ok.1 h
    obtain ⟨u6, h6', rfl⟩ := onWorld_ok h6
    obtain ⟨rfl, M, hM, s6⟩ := addFriends_lot (w := u3) rfl s3 h6'
    replace s6 : Lot env [L, M] [⟨idsFrom b p.nPersons, p.nPersons, [("NAME", a), ("POPULARITY", y)],
      [("sites", 0), ("friends", 1)]⟩] [] (start, step) u6 := s6
    obtain ⟨own, c4, h4, h⟩ := Act.bind_eq_ok.1 h
    obtain ⟨rfl, s, hf, s4, hact, hbe⟩ := createStory_lot (c := { c2 with world := u6 }) s6 h4
    obtain ⟨d, c5, h5, h⟩ := Act.bind_eq_ok.1 h
    obtain ⟨u5, h5', rfl⟩ := onWorld_ok h5
    have s5 := lot_seeded s4 h5'
    obtain ⟨-, -, seed5, b5⟩ := Shop.after_seeded (env := env) h5'
    obtain ⟨ws, c7, h7, h⟩ := Act.bind_eq_ok.1 h
    obtain ⟨u7, h7', rfl⟩ := onWorld_ok h7
    obtain ⟨rfl, hws⟩ := popularities_lot (w := u5) (p := ⟨idsFrom b p.nPersons, p.nPersons,
      [("NAME", a), ("POPULARITY", y)], [("sites", 0), ("friends", 1)]⟩) rfl (a := y) rfl hone hyh.1 s5 h7'
    obtain ⟨rfl, rfl⟩ := Act.pure_eq_ok.1 h
    refine ⟨s5.clock.1, s5.clock.2, ⟨st, d, .ref 0, ws, fmt⟩, rfl, rfl, ?_, opened hstep s5 hf ?_ rfl ?_ ?_ ?_ ?_ ?_
      (fun _ _ => ⟨seed5, b5⟩) (by rcases hst with rfl | rfl <;> rfl) hbe⟩
    · rcases hst with rfl | rfl <;> rfl
    · exact acting_same (s5.stories.trans s4.stories.symm) hact
    · exact fun _ => ⟨a, .head _, ha⟩
    · exact fun _ => ⟨y, .tail _ (.head _), hws⟩
    · intro h1
      rcases hst with rfl | rfl <;> cases h1
    · exact fun _ => ⟨L, rfl, weights_eq st ▸ hL⟩
    · exact fun _ => ⟨M, rfl, hM⟩
  cases st with
  | one =>
    change step1 env p g fmt c = _ at h
    rw [step1] at h
    obtain ⟨i, c1, h1, h⟩ := Act.bind_eq_ok.1 h
    obtain ⟨rfl, s1⟩ := createPersons_lot hsem hg hnew h1
    obtain ⟨own, c2, h2, h⟩ := Act.bind_eq_ok.1 h
    obtain ⟨rfl, s, hf, s2, hact, hbe⟩ := createStory_lot s1 h2
    obtain ⟨rfl, rfl⟩ := Act.pure_eq_ok.1 h
    exact ⟨s2.clock.1, s2.clock.2, ⟨.one, .ref 0, .ref 0, [], fmt⟩, rfl, rfl, rfl, opened hstep s2 hf hact rfl
      (fun h => absurd rfl h) (by simp [Step.rels]) (by simp) (by simp [Step.rels]) (by simp [Step.rels])
      (fun h => absurd rfl h) rfl hbe⟩
  | two =>
    change step2 env p g fmt c = _ at h
    rw [step2] at h
    obtain ⟨i, c1, h1, h⟩ := Act.bind_eq_ok.1 h
    obtain ⟨u, c2, h2, h⟩ := Act.bind_eq_ok.1 h
    obtain ⟨rfl, a, ha, s2⟩ := named_lot hsem hg hnew h1 h2
    obtain ⟨own, c4, h4, h⟩ := Act.bind_eq_ok.1 h
    obtain ⟨rfl, s, hf, s4, hact, hbe⟩ := createStory_lot s2 h4
    obtain ⟨rfl, rfl⟩ := Act.pure_eq_ok.1 h
    exact ⟨s4.clock.1, s4.clock.2, ⟨.two, .ref 0, .ref 0, [], fmt⟩, rfl, rfl, rfl, opened hstep s4 hf hact rfl
      (fun _ => ⟨a, .head _, ha⟩) (by simp [Step.rels]) (by simp) (by simp [Step.rels]) (by simp [Step.rels])
      (fun _ h => absurd rfl h) rfl hbe⟩
  | three =>
    change step3 env p g fmt c = _ at h
    rw [step3] at h
    obtain ⟨i, c1, h1, h⟩ := Act.bind_eq_ok.1 h
    obtain ⟨u, c2, h2, h⟩ := Act.bind_eq_ok.1 h
    obtain ⟨rfl, a, ha, s2⟩ := named_lot hsem hg hnew h1 h2
    obtain ⟨own, c4, h4, h⟩ := Act.bind_eq_ok.1 h
    obtain ⟨rfl, s, hf, s4, hact, hbe⟩ := createStory_lot s2 h4
    obtain ⟨d, c5, h5, h⟩ := Act.bind_eq_ok.1 h
    obtain ⟨u5, h5', rfl⟩ := onWorld_ok h5
    have s5 := lot_seeded s4 h5'
    obtain ⟨-, -, seed5, b5⟩ := Shop.after_seeded (env := env) h5'
    obtain ⟨x, c6, h6, h⟩ := Act.bind_eq_ok.1 h
    obtain ⟨u6, h6', rfl⟩ := onWorld_ok h6
    have s6 := lot_seeded (w := u5) s5 h6'
    obtain ⟨a6, -, seed', hb⟩ := Shop.after_seeded (env := env) h6'
    obtain ⟨r, hr⟩ := hg.choice (sites p g) seed'
    rw [hr, sites_eq] at hb
    obtain ⟨rfl, rfl⟩ := Act.pure_eq_ok.1 h
    exact ⟨s6.clock.1, s6.clock.2, ⟨.three, d, x, [], fmt⟩, rfl, rfl, rfl, opened hstep s6 hf
      (acting_same (s6.stories.trans s4.stories.symm) hact) rfl
      (fun _ => ⟨a, .head _, ha⟩) (by simp [Step.rels]) (fun _ => ⟨r, hb⟩) (by simp [Step.rels]) (by simp [Step.rels])
      (fun _ _ => ⟨seed5, a6.began b5⟩) rfl hbe⟩
  | four => exact h45 .four (.inl rfl) h
  | five => exact h45 .five (.inr rfl) h
  | six => exact h67 .six (.inl rfl) h
  | seven => exact h67 .seven (.inr rfl) h

/-- **C127** Any run of a step, from the creation of the circus to the end: the log file has, for each of the steps of
the clock in the duration, the records of the same persons. -/
theorem C127_run (hsem : env.sem = AnyGen.sem env.R) {p : Params} {g : Parts (AnyGen σ)} {b : SeqGen} (hg : g.Usual b)
    {fmt : Int → Cell} {name : String} {seed start step : Int} (hstep : 0 < step)
    (hnew : Circus.new env.R name seed start step = .ok c) {st : Step} {ops : List (Op (World σ (AnyGen σ)))}
    (hbuild : st.build env p g fmt c = .ok ops c') {text : Cell → Text} {folder : Path} (so : SetOrder String)
    (fuel d : Nat) (duration : Int) (delete : Bool) {fs : FS} {s' : Sys σ (AnyGen σ)} (ht : Tree fs)
    (hd : DepthBelow fs folder d) (hfuel : d < fuel)
    (h : Sys.run env text folder so fuel [ops] duration delete ⟨c', fs⟩ = .ok () s') :
    ∃ (sc : Scene) (total : Nat) (events : List (Int × Event)) (fs0 : FS), sc.step = st ∧ sc.fmt = fmt ∧
      (0 ≤ duration → c'.world.clock.nIterations duration = .ok total) ∧
      Opening p g b env sc c'.world ∧ Ready env sc (idsFrom g.siteIds p.nSites) (idsFrom b p.nPersons) c'.world ∧
      Played env (sc.chains env) c'.world events s'.circus.world ∧ LogsWritten text folder fs0 (emitted events) s'.fs ∧
      ∀ o, (loggedRows "hello" (emitted events)).map (·.idx) =
        (List.range total).flatMap fun _ => sc.speakers o c'.world (idsFrom b p.nPersons) := by
  obtain ⟨e1, e2, sc, k1, k2, k3, k4, k5⟩ := C127_built hsem hg hstep.le hnew hbuild
  rw [k3] at h
  have hk : ∀ ops ∈ sc.chains env, ∀ op ∈ ops, KeepsDate op := by
    intro ops ho op hop
    obtain ⟨j, hj⟩ := List.mem_iff_getElem?.1 ho
    exact C59_builtIn_keepsDate op ((hello_builtIn hj (F := (· ≠ 0)) (Z := (· ≠ 0))).2 op hop)
  obtain ⟨total, events, fs0, h0, h1, h2, -, -, h3⟩ := C60_logs so fuel d duration delete ⟨c', fs⟩ s' hk ht hd hfuel h
  have h0 : c'.world.clock.nIterations duration = .ok total := h0
  refine ⟨sc, total.toNat, events, fs0, k1, k2, fun hdur => ?_, k5, k4, h1, h3, fun o => ?_⟩
  · obtain ⟨m, q1, q2, -⟩ := C09_n_iterations c'.world.clock duration (by rw [e2]; exact hstep) hdur
    rw [h0] at q1 ⊢
    cases q1
    rw [Int.toNat_of_nonneg q2]
  · have h2 : events.map (fun e => (e.1, e.2.story)) =
        schedule c'.world.clock.current c'.world.clock.step total.toNat (sc.chains env).length := h2
    rw [C127_log hsem k4 h1 o, Shop.execDates_schedule (i := 0) (by simp [Scene.chains]) h2, List.flatMap_map]

/-! ### Non-vacuity -/

def exParams : Params := ⟨3, 4⟩

def exParts : Parts (AnyGen Nat) where
  personIds := .seq ⟨0, "PERSON_", 3⟩
  names seed := .choice [.str "A", .str "B"] none (Rng.counter.seed seed)
  popularity seed := .uniform 0 1 (Rng.counter.seed seed)
  durations seed := .uniform 0 120 (Rng.counter.seed seed)
  siteIds := ⟨0, "SITE_", 3⟩
  choice l seed := .choice l none (Rng.counter.seed seed)
  graph _ _ _ _ := [(0, 4), (0, 5), (1, 3)]

theorem exUsual : exParts.Usual ⟨0, "PERSON_", 3⟩ := ⟨rfl, fun _ _ => ⟨_, rfl⟩⟩

def exFmt : Int → Cell := fun d => .num d

def exBuild (st : Step) : Option (List (Op (World Nat (AnyGen Nat))) × Circus Nat (AnyGen Nat)) :=
  match Circus.new Rng.counter "hello" 1234 0 (3600 * nsPerSec) with
  | .ok c => match st.build Trumania.exEnv exParams exParts exFmt c with
    | .ok ops c' => some (ops, c')
    | .error _ _ => none
  | .error _ => none

/-- some fields of the records of a run of two steps of the clock -/
def exRecords (st : Step) : Option (List (List Cell)) :=
  (exBuild st).bind fun x => (Snd.play exEnv [x.1] [some 0, none, some 0, none] x.2.world).map fun r =>
    (tablesOf "hello" (emitted r.1)).flatMap fun t => t.rows.map fun r => ["PERSON_ID", "SITE", "COUNTERPART_ID",
      "COUNTERPART_SITE", "DURATION", "PRICE"].map (cell t r)

/-- the person that has no friend says nothing -/
theorem exCalls : exRecords .seven = some
    [[.str "PERSON_000", .str "SITE_002", .str "PERSON_001", .str "SITE_003", .num 24, .num (6/5)],
     [.str "PERSON_001", .str "SITE_003", .str "PERSON_000", .str "SITE_002", .num 36, .num (9/5)],
     [.str "PERSON_000", .str "SITE_002", .str "PERSON_001", .str "SITE_002", .num 60, .num 3],
     [.str "PERSON_001", .str "SITE_002", .str "PERSON_000", .str "SITE_001", .num 72, .num (18/5)]] := by
  decide +kernel

/-- the hypotheses of C127 hold of this run of step 7 -/
example : ∃ (sc : Scene) (c c' : Circus Nat (AnyGen Nat)) (evs : List (Int × Event)) (w' : World Nat (AnyGen Nat)), sc.step = .seven ∧ Circus.new exEnv.R "hello" 1234 0 (3600 * nsPerSec) = .ok c ∧
    Ready exEnv sc (idsFrom ⟨0, "SITE_", 3⟩ 4) (idsFrom ⟨0, "PERSON_", 3⟩ 3) c'.world ∧
    Opening exParams exParts ⟨0, "PERSON_", 3⟩ Trumania.exEnv sc c'.world ∧
    Played exEnv (sc.chains exEnv) c'.world evs w' ∧ tablesOf "hello" (emitted evs) ≠ [] := by
  obtain ⟨⟨ops, c'⟩, h1, h2⟩ := Option.bind_eq_some_iff.1 exCalls
  obtain ⟨⟨evs, w'⟩, h3, h4⟩ := Option.map_eq_some_iff.1 h2
  rw [exBuild] at h1
  split at h1
  · rename_i c hc
    split at h1
    · rename_i hb
      cases h1
      obtain ⟨-, -, sc, k0, -, k1, k2, k3⟩ := C127_built (env := exEnv) rfl exUsual (by decide) hc hb
      refine ⟨sc, c, _, evs, w', k0, hc, k2, k3, ?_, fun e => ?_⟩
      · rw [← k1]
        exact Snd.play_played h3
      · simp only [e] at h4
        cases h4
    · cases h1
  · cases h1

end Hello
end Trumania
