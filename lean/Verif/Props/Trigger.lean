import Verif.Spec.Trigger
import Verif.Props.Journal
import Verif.Props.StoryOps
import Verif.Model.Uganda

/-!
# Property C97 (stories triggered by others)
-/

namespace Trumania
open Spec World Story
variable {σ γ : Type} {env : Env σ γ} {b : Nat} {chains : List (List (Op (World σ γ)))}

/-- every run is a list of deeds, one per execution -/
theorem played_deeds {w w' : World σ γ} {evs : List (Int × Event)}
    (h : Played env chains w evs w') :
    ∃ deeds, Deeds env chains w deeds w' ∧
      deeds.map (fun d => (d.date, some d.story)) =
        (evs.map fun e => (e.1, e.2.story)).filter (fun e => e.2.isSome) := by
  induction h with
  | nil w => exact ⟨[], .nil _, rfl⟩
  | @exec w w1 w' l i ops logs hi h rest ih =>
    obtain ⟨deeds, h1, h2⟩ := ih
    obtain ⟨s, -, -, -, hs, -⟩ := execute_ok h
    exact ⟨_, .exec hi hs h h1, by simp [h2, Event.story]⟩
  | tick rest ih =>
    obtain ⟨deeds, h1, h2⟩ := ih
    exact ⟨deeds, .tick h1, by simp [h2, Event.story]⟩

/-- the data of a story in which each row still names its own member -/
def Spec.NamesOwn (own : String) (data : Frame) : Prop :=
  Rect data ∧ data.index.Nodup ∧ ∀ r ∈ data.rows, cell data r own = .scalar r.idx

/-- the story `b` is as `s`, and the timer of `id` too -/
def Spec.KeptFor (b : Nat) (s : Story σ) (id : Val) (w : World σ γ) : Prop :=
  ∃ s', w.stories[b]? = some s' ∧ SameStatic s s' ∧ timerOf s' id = timerOf s id

theorem apis_keptFor {F Z : Nat → Val → Prop} {w w' : World σ γ} {s : Story σ} {id : Val}
    (hF : ¬F b id) (hZ : ¬Z b id) (h : Apis env F Z anyGens w w') (hs : KeptFor b s id w) :
    KeptFor b s id w' := by
  obtain ⟨s1, h1, h2, h3⟩ := hs
  obtain ⟨s', e1, e2, e3⟩ := apis_story (i := b) (P := fun t => timerOf t id = timerOf s id)
    (fun x y _ hx hstep => by
      rcases hstep.timer id with ⟨k1, -⟩ | ⟨k, -⟩ | ⟨k, -⟩
      · exact k1.trans hx
      · exact absurd k hF
      · exact absurd k hZ) GenKept.any h trivial h1 h3
  exact ⟨s', e1, h2.trans e2, e3⟩

/-- one operation of a triggering story -/
theorem triggersOwn_op {own : String} {op : Op (World σ γ)} (hop : TriggersOwn env b own op)
    {data : Frame} {out : Frame × Logs} {w w' : World σ γ} (h : op data w = .ok out w')
    (hd : NamesOwn own data) :
    NamesOwn own out.1 ∧ (∀ i ∈ out.1.index, i ∈ data.index) ∧
    ∀ (s : Story σ) (id : Val), id ∉ data.index → KeptFor b s id w → KeptFor b s id w' := by
  obtain ⟨hr, hn, hown⟩ := hd
  have hnamed : ∀ c id, Names data own c id → id ∈ data.index := by
    rintro c id ⟨-, x, hx, -, e⟩
    rw [hown x hx] at e
    cases e
    exact List.mem_map_of_mem hx
  cases hop with
  | other hop =>
    obtain ⟨k1, -, k2⟩ := within_kept (name := own) (fun _ h => h) hop h hr
    obtain ⟨k3, k4⟩ := builtIn_index hop.builtIn h hn
    refine ⟨⟨k1, k3, fun r hr' => ?_⟩, k4, fun s id _ hs => ?_⟩
    · obtain ⟨r0, m0, e0, f0⟩ := k2 r hr'
      rw [f0, hown r0 m0, e0]
    · exact apis_keptFor (by simp) (by simp)
        (builtIn_respects (GenKept.any (env := env)) hop.builtIn _ _ _ _ h) hs
  | reset =>
    obtain ⟨out, logs⟩ := out
    have hod : out = data := by
      obtain ⟨-, h0⟩ := sideEffect_eq_ok.1 h
      cases h0; rfl
    subst hod
    refine ⟨⟨hr, hn, hown⟩, fun _ h => h, fun s id hid hs => ?_⟩
    obtain ⟨s1, h1, h2, h3⟩ := hs
    obtain ⟨-, -, s', l, e1, -, e2, e3, e4, e5, -⟩ := C94_reset_timers h1 hn h
    refine ⟨s', by rw [e1, set_get h1, if_pos rfl], h2.trans ⟨?_, e4⟩, ?_⟩
    · rw [e3]
    · rw [e5 id (fun hl => hid ((e2 id).1 hl).2), h3]
  | resetField =>
    obtain ⟨out, logs⟩ := out
    have hod : out = data := by
      obtain ⟨-, h0⟩ := sideEffect_eq_ok.1 h
      cases h0; rfl
    subst hod
    refine ⟨⟨hr, hn, hown⟩, fun _ h => h, fun s id hid hs => ?_⟩
    obtain ⟨s1, h1, h2, h3⟩ := hs
    obtain ⟨-, -, s', l, e1, -, e2, e3, e4, e5, -⟩ := C94_reset_timers h1 hn h
    refine ⟨s', by rw [e1, set_get h1, if_pos rfl], h2.trans ⟨?_, e4⟩, ?_⟩
    · rw [e3]
    · rw [e5 id (fun hl => hid (hnamed _ _ ((e2 id).1 hl).2)), h3]
  | force cond =>
    obtain ⟨out, logs⟩ := out
    have hod : out = data := by
      obtain ⟨-, h0⟩ := sideEffect_eq_ok.1 h
      cases h0; rfl
    subst hod
    refine ⟨⟨hr, hn, hown⟩, fun _ h => h, fun s id hid hs => ?_⟩
    obtain ⟨s1, h1, h2, h3⟩ := hs
    obtain ⟨-, -, s', e1, e3, e4, -, e5, -⟩ := C94_force_act_next h1 h
    refine ⟨s', by rw [e1]; simp only; rw [set_get h1, if_pos rfl], h2.trans ⟨?_, e4⟩, ?_⟩
    · rw [e3]
    · rw [(e5 id (fun hl => hid (hnamed _ _ hl))).2, h3]

/-- the operations of a triggering story change the timers of no other member -/
theorem triggersOwn_runs {own : String} {ops : List (Op (World σ γ))}
    (hops : ∀ op ∈ ops, TriggersOwn env b own op) {data out : Frame} {ls : List Logs}
    {w w' : World σ γ} (h : Runs ops data w out ls w') (hd : NamesOwn own data) (s : Story σ) (id : Val)
    (hid : id ∉ data.index) (hs : KeptFor b s id w) : KeptFor b s id w' := by
  induction h with
  | nil => exact hs
  | cons h _ ih =>
    obtain ⟨h1, h2, h3⟩ := triggersOwn_op (hops _ (by simp)) h hd
    exact ih (fun o ho => hops o (by simp [ho])) h1 (fun hc => hid (h2 _ hc)) (h3 s id hid hs)

theorem actingRows_namesOwn {s : Story σ} (hn : s.ids.Nodup) :
    NamesOwn s.idField ⟨[s.idField], actingRows s⟩ := by
  refine ⟨actingRows_rect s, ?_, fun r hr => actingRows_cells hr⟩
  have : ((actingRows s).map (·.idx)).Sublist s.ids := by
    rw [actingRows, Story.ids]
    generalize s.timer = t
    induction t with
    | nil => exact .slnil
    | cons r t ih =>
      rw [List.filterMap_cons]
      by_cases h : r.remaining = some 0
      · simp only [h, if_true, List.map_cons]
        exact ih.cons_cons _
      · simp only [h, if_false]
        exact ih.cons _
  exact hn.sublist this

/-- what the execution of another story does to a member of `b`: nothing, unless the member acts in it
and it is a trigger -/
theorem trigger_exec_other {triggers : List Nat} {w w1 : World σ γ}
    (hw : OnlyTriggeredBy env b triggers chains w) {i : Nat} {ops : List (Op (World σ γ))} {logs : Logs}
    {si s : Story σ} (hi : chains[i]? = some ops) (hsi : w.stories[i]? = some si) (hni : si.ids.Nodup)
    (h : execute env ops i w = .ok logs w1) (hib : i ≠ b) (hs : w.stories[b]? = some s) (id : Val)
    (hid : ¬ (i ∈ triggers ∧ id ∈ (actingRows si).map (·.idx))) : KeptFor b s id w1 := by
  obtain ⟨t, w2, s2, s', ht, hafter, h2, h3, -⟩ := execute_ok h
  rw [hsi] at ht; cases ht
  have hst : KeptFor b s id (started w i si) := ⟨s, by rw [started_get_ne hib]; exact hs, .refl _, rfl⟩
  obtain ⟨k1, k2⟩ := hw i ops si hi hsi
  have h4 : KeptFor b s id w2 := by
    by_cases hT : i ∈ triggers
    · obtain ⟨t, ht, h5⟩ := hafter
      rw [hsi] at ht; cases ht
      rcases h5 with ⟨-, -, rfl⟩ | ⟨-, last, h5⟩
      · exact hst
      · obtain ⟨-, ls, hr, -⟩ := (chain_sequential env.logSet ops _ last _ w2).1 logs h5
        exact triggersOwn_runs (k1 hT) hr (actingRows_namesOwn hni) s id (fun hc => hid ⟨hT, hc⟩) hst
    · exact apis_keptFor (by simp) (by simp) (afterOps_apis (fun op hop =>
        builtIn_respects (GenKept.any (env := env)) (k2 hT op hop)) hsi hafter) hst
  obtain ⟨s4, e1, e2, e3⟩ := h4
  exact ⟨s4, by rw [h3, List.getElem?_set_ne hib]; exact e1, e2, e3⟩

/-- what the execution of `b` itself does to its members: those that act are no longer scheduled, and
nobody gets scheduled -/
theorem trigger_exec_self {w w1 : World σ γ} {ops : List (Op (World σ γ))} {logs : Logs} {s : Story σ}
    (hops : ∀ op ∈ ops, BuiltIn env (· ≠ b) (· ≠ b) op) (hs : w.stories[b]? = some s)
    (hn : s.ids.Nodup) (hauto : s.autoReset = false) (h : execute env ops b w = .ok logs w1) :
    ∃ s', w1.stories[b]? = some s' ∧ SameStatic s s' ∧
      ∀ id, (Acts s id → ¬ Scheduled s' id) ∧ (Scheduled s' id → Scheduled s id) := by
  obtain ⟨t, w2, s2, s', ht, hafter, h2, h3, -, h5, h6, -, -, hrows⟩ := execute_ok h
  rw [hs] at ht; cases ht
  have hapis := afterOps_apis (fun op hop => builtIn_respects (GenKept.any (env := env)) (hops op hop)) hs hafter
  have hstat : SameStatic s s2 ∧ ∀ id, timerOf s2 id = timerOf s id ∧ id ∉ s2.forced := by
    obtain ⟨s3, e1, e2, e3⟩ := apis_story (i := b)
      (P := fun t => ∀ id, timerOf t id = timerOf s id ∧ id ∉ t.forced)
      (fun x y _ hx hstep id => by
        rcases hstep.timer id with ⟨k1, k2⟩ | ⟨k, -⟩ | ⟨k, -⟩
        · exact ⟨k1.trans (hx id).1, fun hc => (hx id).2 (k2.1 hc)⟩
        · exact absurd rfl k
        · exact absurd rfl k) GenKept.any hapis trivial (started_get hs)
        (fun id => ⟨rfl, by simp⟩)
    rw [h2] at e1; cases e1
    refine ⟨⟨?_, e2.2⟩, e3⟩
    rw [e2.1]
  have hstat' : SameStatic s s' := hstat.1.trans ⟨by rw [h5], h6⟩
  have hauto2 : s2.autoReset = false := by rw [hstat.1.1]; exact hauto
  obtain ⟨r1, -, r3, r4, -⟩ := hrows hn
  refine ⟨s', by rw [h3, set_get h2, if_pos rfl], hstat', fun id => ?_⟩
  have htimer : timerOf s' id = if id ∈ s.ids then (timerOf s id).map ticked else timerOf s id := by
    rw [← (hstat.2 id).1]
    by_cases hid : id ∈ s.ids
    · rw [if_pos hid]
      have : s'.row? id = (s2.row? id).map tickedRow := by
        by_cases ha : Acts s id
        · exact r4 id ha (hstat.2 id).2 hauto2
        · exact r3 id hid ha (hstat.2 id).2
      rw [timerOf_eq, timerOf_eq, this]
      cases s2.row? id <;> rfl
    · rw [if_neg hid, timerOf_eq, timerOf_eq, r1 id hid]
  constructor
  · rintro ha ⟨q, hq, hc⟩
    rw [acts_iff, mem_activeIds hn] at ha
    have hid : id ∈ s.ids := by
      by_contra hid
      rw [timerOf_eq] at ha
      obtain ⟨r, hr, -⟩ := Option.map_eq_some_iff.1 ha
      exact hid (row?_id hr ▸ List.mem_map_of_mem (row?_mem hr))
    rw [htimer, if_pos hid, ha] at hc
    simp only [Option.map_some, ticked, le_refl, if_true, Option.some.injEq] at hc
    rw [← hc] at hq
    exact absurd hq (by norm_num)
  · rintro ⟨q, hq, hc⟩
    rw [htimer] at hc
    split at hc
    · obtain ⟨p, hp, he⟩ := Option.map_eq_some_iff.1 hc
      cases p with
      | none => cases he
      | some p =>
        by_cases h0 : 0 ≤ p
        · exact ⟨p, h0, hp⟩
        · rw [ticked, if_neg h0] at he
          cases he
          exact absurd hq h0
    · exact ⟨q, hq, hc⟩

theorem OnlyTriggeredBy.same {triggers : List Nat} {w w' : World σ γ} (h : SameStories w w')
    (hw : OnlyTriggeredBy env b triggers chains w) : OnlyTriggeredBy env b triggers chains w' := by
  intro j ops s hj hs
  have hlen := List.Forall₂.length_eq h
  have hj' : j < w'.stories.length := (List.getElem?_eq_some_iff.1 hs).1
  have e := (List.forall₂_iff_get.1 h).2 j (by omega) hj'
  rw [List.get_eq_getElem, List.get_eq_getElem, (List.getElem?_eq_some_iff.1 hs).2] at e
  have hf : s.idField = (w.stories[j]'(by omega)).idField := by rw [e.1]
  rw [hf]
  exact hw j ops _ hj (List.getElem?_eq_getElem (by omega))

theorem Spec.SideEffect.mono {F Z F' Z' : Nat → Prop} (hF : ∀ j, F j → F' j) (hZ : ∀ j, Z j → Z' j)
    {op : Op (World σ γ)} (h : SideEffect env F Z op) : SideEffect env F' Z' op := by
  cases h with
  | relAdd rel f i => exact .relAdd rel f i
  | relAddGrouped rel f i => exact .relAddGrouped rel f i
  | relRemove rel f i => exact .relRemove rel f i
  | attrUpdate pop name i c => exact .attrUpdate pop name i c
  | attrAdd pop name i a s => exact .attrAdd pop name i a s
  | popUpdate pop i copy => exact .popUpdate pop i copy
  | forceActNext story i cond h => exact .forceActNext story i cond (hF _ h)
  | resetTimers story i h => exact .resetTimers story i (hZ _ h)
  | transitToState story i src cond => exact .transitToState story i src cond
  | maybeBackToDefault story => exact .maybeBackToDefault story

theorem Spec.BuiltIn.mono {F Z F' Z' : Nat → Prop} (hF : ∀ j, F j → F' j) (hZ : ∀ j, Z j → Z' j)
    {op : Op (World σ γ)} (h : BuiltIn env F Z op) : BuiltIn env F' Z' op := by
  induction h with
  | adder h => exact .adder h
  | effect h => exact .effect (h.mono hF hZ)
  | fieldLogger logId cols exploded => exact .fieldLogger logId cols exploded
  | dropRow field => exact .dropRow field
  | applyFrame a b f hf => exact .applyFrame a b f hf
  | selectOne => exact .selectOne ..
  | selectAll => exact .selectAll ..
  | selectMany => exact .selectMany ..
  | lookup => exact .lookup ..
  | chain ops _ ih => exact .chain ops ih

theorem triggersOwn_builtIn {own : String} {op : Op (World σ γ)} (h : TriggersOwn env b own op) :
    BuiltIn env (fun _ => True) (fun _ => True) op := by
  cases h with
  | other h => exact h.builtIn.mono (fun _ _ => trivial) (fun _ _ => trivial)
  | reset => exact .effect (.resetTimers b none trivial)
  | resetField => exact .effect (.resetTimers b _ trivial)
  | force cond => exact .effect (.forceActNext b _ cond trivial)

theorem SameStories.nodup {w w' : World σ γ} (h : SameStories w w')
    (hw : ∀ s ∈ w.stories, s.ids.Nodup) : ∀ s ∈ w'.stories, s.ids.Nodup :=
  h.forall (P := fun s : Story σ => s.ids.Nodup) (fun s s' e hs => by rw [e.2]; exact hs) hw

open Classical in
/-- **C97** A story that does not reset its own timers, all the members of which are forced or reset
only by their own actions in the stories `triggers`: in a run, a member never acts more often in it than
in those stories, plus once if it was scheduled in the beginning. A member that is still scheduled in
the end has one action left. -/
theorem C97_no_action_without_trigger {triggers : List Nat} {w w' : World σ γ} {deeds : List Deed}
    (hw : OnlyTriggeredBy env b triggers chains w) (hb : b ∉ triggers)
    (hn : ∀ s ∈ w.stories, s.ids.Nodup) {s : Story σ} (hs : w.stories[b]? = some s)
    (hauto : s.autoReset = false) (h : Deeds env chains w deeds w') (id : Val) :
    ∃ s', w'.stories[b]? = some s' ∧
      timesActed [b] id deeds + (if Scheduled s' id then 1 else 0) ≤
        timesActed triggers id deeds + (if Scheduled s id then 1 else 0) := by
  induction h generalizing s with
  | nil w => exact ⟨s, hs, by simp [timesActed]⟩
  | tick rest ih => exact ih hw hn hs hauto
  | @exec w w1 w' l i ops logs si hi hsi h rest ih =>
    have hcnt : ∀ T : List Nat, timesActed T id
        (⟨w.clock.current, i, (actingRows si).map (·.idx)⟩ :: l) =
        timesActed T id l + if i ∈ T ∧ id ∈ (actingRows si).map (·.idx) then 1 else 0 := by
      intro T
      simp [timesActed, List.countP_cons]
    have hbi : ∀ op ∈ ops, BuiltIn env (fun _ => True) (fun _ => True) op := by
      intro op hop
      obtain ⟨k1, k2⟩ := hw i ops si hi hsi
      by_cases hT : i ∈ triggers
      · exact triggersOwn_builtIn (k1 hT op hop)
      · exact (k2 hT op hop).mono (fun _ _ => trivial) (fun _ _ => trivial)
    have hsame := execute_sameStories hbi h
    have hw1 := OnlyTriggeredBy.same hsame hw
    have hn1 := hsame.nodup hn
    by_cases hib : i = b
    · subst hib
      obtain rfl : s = si := Option.some.inj (hs.symm.trans hsi)
      obtain ⟨s1, e1, e2, e3⟩ := trigger_exec_self ((hw i ops s hi hs).2 hb) hs
        (hn s (List.mem_of_getElem? hs)) hauto h
      obtain ⟨s', g1, g2⟩ := ih hw1 hn1 e1 (by rw [e2.1]; exact hauto)
      refine ⟨s', g1, ?_⟩
      rw [hcnt, hcnt]
      obtain ⟨k1, k2⟩ := e3 id
      have hsch : Acts s id → Scheduled s id := fun ha => by
        rw [acts_iff, mem_activeIds (hn s (List.mem_of_getElem? hs))] at ha
        exact ⟨0, le_refl _, ha⟩
      change Acts s id → _ at k1
      have hA : (id ∈ (actingRows s).map (·.idx)) = Acts s id := rfl
      simp only [hA, List.mem_singleton, hb, true_and, false_and, if_false]
      by_cases ha : Acts s id
      · have := k1 ha
        have := hsch ha
        simp_all
        omega
      · by_cases h1 : Scheduled s1 id
        · have := k2 h1
          simp_all
        · rw [if_neg h1] at g2
          rw [if_neg ha]
          omega
    · by_cases hT : i ∈ triggers ∧ id ∈ (actingRows si).map (·.idx)
      · obtain ⟨s1, e1, e2⟩ : ∃ s1, w1.stories[b]? = some s1 ∧ s1.autoReset = false := by
          have hlen := List.Forall₂.length_eq hsame
          have hj : b < w.stories.length := (List.getElem?_eq_some_iff.1 hs).1
          have e := (List.forall₂_iff_get.1 hsame).2 b hj (by omega)
          rw [List.get_eq_getElem, List.get_eq_getElem, (List.getElem?_eq_some_iff.1 hs).2] at e
          refine ⟨_, List.getElem?_eq_getElem (by omega), ?_⟩
          rw [e.1]; exact hauto
        obtain ⟨s', g1, g2⟩ := ih hw1 hn1 e1 e2
        refine ⟨s', g1, ?_⟩
        rw [hcnt, hcnt, if_pos hT]
        simp only [List.mem_singleton, hib, false_and, if_false]
        have : (if Scheduled s1 id then 1 else 0) ≤ 1 := by split <;> omega
        omega
      · obtain ⟨s1, e1, e2, e3⟩ := trigger_exec_other hw hi hsi (hn si (List.mem_of_getElem? hsi)) h hib hs id hT
        obtain ⟨s', g1, g2⟩ := ih hw1 hn1 e1 (by rw [e2.1]; exact hauto)
        refine ⟨s', g1, ?_⟩
        rw [hcnt, hcnt, if_neg hT]
        have : Scheduled s1 id ↔ Scheduled s id := by simp only [Scheduled, e3]
        simp only [List.mem_singleton, hib, false_and, if_false]
        simp only [this] at g2
        omega

theorem runs_apis {F Z : Nat → Val → Prop} {ops : List (Op (World σ γ))}
    (hops : ∀ op ∈ ops, Respects env F Z anyGens op) {data out : Frame} {ls : List Logs}
    {w w' : World σ γ} (h : Runs ops data w out ls w') : Apis env F Z anyGens w w' := by
  induction h with
  | nil => exact .refl
  | cons h _ ih => exact (hops _ (by simp) _ _ _ _ h).trans (ih fun o ho => hops o (by simp [ho]))

/-- **C97** In particular a member that was not scheduled in the beginning has acted in a triggering
story before each of its actions: in every beginning of the run it has not acted more often. -/
theorem C97_in_a_run {triggers : List Nat} {w w' : World σ γ} {evs : List (Int × Event)}
    (hw : OnlyTriggeredBy env b triggers chains w) (hb : b ∉ triggers)
    (hn : ∀ s ∈ w.stories, s.ids.Nodup) {s : Story σ} (hs : w.stories[b]? = some s)
    (hauto : s.autoReset = false) (h : Played env chains w evs w') :
    ∃ deeds, Deeds env chains w deeds w' ∧
      deeds.map (fun d => (d.date, some d.story)) =
        (evs.map fun e => (e.1, e.2.story)).filter (fun e => e.2.isSome) ∧
      ∀ before after id, deeds = before ++ after → ¬ Scheduled s id →
        timesActed [b] id before ≤ timesActed triggers id before := by
  obtain ⟨deeds, h1, h2⟩ := played_deeds h
  refine ⟨deeds, h1, h2, fun before after id he hid => ?_⟩
  have hsplit : ∀ {w w' : World σ γ} {l : List Deed}, Deeds env chains w l w' → ∀ a c, l = a ++ c →
      ∃ w1, Deeds env chains w a w1 := by
    intro w w' l h
    induction h with
    | nil w =>
      intro a c e
      obtain ⟨rfl, -⟩ := List.append_eq_nil_iff.1 e.symm
      exact ⟨w, .nil w⟩
    | @exec w w1 w' l i ops logs si hi hsi h rest ih =>
      intro a c e
      cases a with
      | nil => exact ⟨w, .nil w⟩
      | cons x a =>
        obtain ⟨rfl, rfl⟩ := List.cons.inj e
        obtain ⟨w2, h2⟩ := ih a c rfl
        exact ⟨w2, .exec hi hsi h h2⟩
    | @tick w w' l rest ih =>
      intro a c e
      obtain ⟨w2, h2⟩ := ih a c e
      exact ⟨w2, .tick h2⟩
  obtain ⟨w1, h3⟩ := hsplit h1 before after he
  obtain ⟨s', -, h4⟩ := C97_no_action_without_trigger hw hb hn hs hauto h3 id
  rw [if_neg hid] at h4
  omega

/-- **C97** Conversely, each action in a story whose operations reset the timers of `b` schedules the
member there: its timer in `b` is drawn again, unless it is already forced to act in `b`. -/
theorem C97_trigger_schedules {own : String} {pre post : List (Op (World σ γ))}
    (hpre : ∀ op ∈ pre, KeepsRows env (· ≠ b) (· ≠ b) op ∧
      OpWithin env (· ≠ b) (· ≠ b) (Clear own) (fun _ => True) (fun _ => True) op)
    (hpost : ∀ op ∈ post, BuiltIn env (· ≠ b) (· ≠ b) op) {i : Nat} (hib : i ≠ b)
    {w w1 : World σ γ} {logs : Logs} {si s : Story σ} (hsi : w.stories[i]? = some si)
    (hown : si.idField = own) (hni : si.ids.Nodup) (hs : w.stories[b]? = some s)
    (h : execute env (pre ++ Ops.resetTimers env b (some own) :: post) i w = .ok logs w1) :
    ∃ s', w1.stories[b]? = some s' ∧ SameStatic s s' ∧
      (∀ id, id ∈ s'.forced ↔ id ∈ s.forced) ∧
      ∀ id, Acts si id → id ≠ .na →
        (id ∈ s.forced → timerOf s' id = timerOf s id) ∧
        (id ∉ s.forced → ∃ w2 s2 l w3, SameStatic s s2 ∧ id ∈ l ∧
          Rescheduled env w2 s2 l (timerOf s') w3) := by
  obtain ⟨t, w2, s2, s', ht, hafter, h2, h3, -⟩ := execute_ok h
  rw [hsi] at ht; cases ht
  have hkeep : ∀ {w w' : World σ γ} {t : Story σ}, w.stories[b]? = some t →
      Apis env (fun j _ => j ≠ b) (fun j _ => j ≠ b) anyGens w w' →
      ∃ t', w'.stories[b]? = some t' ∧ SameStatic t t' ∧
        (∀ id, timerOf t' id = timerOf t id) ∧ ∀ id, id ∈ t'.forced ↔ id ∈ t.forced := by
    intro w w' t ht ha
    obtain ⟨t', e1, e2, e3⟩ := apis_story (i := b)
      (P := fun x => ∀ id, timerOf x id = timerOf t id ∧ (id ∈ x.forced ↔ id ∈ t.forced))
      (fun x y _ hx hstep id => by
        rcases hstep.timer id with ⟨k1, k2⟩ | ⟨k, -⟩ | ⟨k, -⟩
        · exact ⟨k1.trans (hx id).1, k2.trans (hx id).2⟩
        · exact absurd rfl k
        · exact absurd rfl k) GenKept.any ha trivial ht (fun id => ⟨rfl, Iff.rfl⟩)
    exact ⟨t', e1, e2, fun id => (e3 id).1, fun id => (e3 id).2⟩
  have hb0 : (started w i si).stories[b]? = some s := by rw [started_get_ne hib]; exact hs
  have hfin : ∀ t, w2.stories[b]? = some t → w1.stories[b]? = some t := fun t ht => by
    rw [h3, List.getElem?_set_ne hib]; exact ht
  obtain ⟨t, ht, h5⟩ := hafter
  rw [hsi] at ht; cases ht
  rcases h5 with ⟨hnil, -, rfl⟩ | ⟨-, last, h5⟩
  · refine ⟨s, hfin s hb0, .refl _, fun _ => Iff.rfl, fun id ha => ?_⟩
    rw [Acts, hnil] at ha
    simp at ha
  obtain ⟨-, ls, hr, -⟩ := (chain_sequential env.logSet _ _ last _ w2).1 logs h5
  obtain ⟨d1, w3, la, lb, r1, r2, -⟩ := runs_split hr
  obtain ⟨hrect, hnd, hcells⟩ := actingRows_namesOwn hni
  rw [hown] at hrect hnd hcells r1
  obtain ⟨hrect1, -, hk⟩ := C82_field_kept (name := own) (fun _ h => h) (fun op hop => (hpre op hop).2) hrect r1
  have hidx := runs_keepsRows (fun op hop => (hpre op hop).1) hnd r1
  obtain ⟨t1, e1, e2, e3, e4⟩ := hkeep hb0 (runs_apis (fun op hop =>
    builtIn_respects (GenKept.any (env := env)) (hpre op hop).2.builtIn) r1)
  cases r2 with
  | @cons _ _ _ d2 _ _ w4 _ lc _ hop r3 =>
    obtain ⟨-, -, t2, l, f1, -, f2, f3, f4, f5, -, f6, f7⟩ := C94_reset_timers e1 (by rw [hidx]; exact hnd) hop
    have g1 : w4.stories[b]? = some t2 := by rw [f1, set_get e1, if_pos rfl]
    obtain ⟨t3, g2, g3, g4, g5⟩ := hkeep g1 (runs_apis (fun op hop =>
      builtIn_respects (GenKept.any (env := env)) (hpost op hop)) r3)
    have hf2 : t2.forced = t1.forced := by rw [f3]
    refine ⟨t3, hfin _ g2, (e2.trans ⟨by rw [f3], f4⟩).trans g3, fun id => ?_, fun id ha hna => ?_⟩
    · rw [g5, hf2, e4]
    have hname : Names d1 own none id := by
      have : id ∈ d1.index := by rw [hidx]; exact ha
      obtain ⟨x, hx, rfl⟩ := List.mem_map.1 this
      obtain ⟨r, hr1, hr2, hr3⟩ := hk x hx
      exact ⟨hna, x, hx, by simp [Passes], by rw [hr3, hcells r hr1, hr2]⟩
    constructor
    · intro hfo
      rw [g4, f5 id (fun hl => ((f2 id).1 hl).1 ((e4 id).2 hfo)), e3]
    · intro hfo
      have hl : id ∈ l := (f2 id).2 ⟨fun hc => hfo ((e4 id).1 hc), hname⟩
      obtain ⟨w5, k1, -⟩ := f7 (List.ne_nil_of_mem hl)
      refine ⟨w3, t1, l, w5, e2, hl, ?_⟩
      have : timerOf t3 = timerOf t2 := funext g4
      rw [this]; exact k1

/-! ### The geography of Uganda -/

section
open Uganda
variable {u : Parts} {fmt : Int → Cell}

/-- the world in which the two stories have just been created -/
theorem uganda_created {w w' : World σ γ} {down repair : Nat}
    (hn : ∀ s ∈ w.stories, s.ids.Nodup) (hp : ∀ p ∈ w.pops, p.ids.Nodup)
    (h : Uganda.createStories env u w = .ok (down, repair) w') :
    down = w.stories.length ∧ repair = w.stories.length + 1 ∧
    (∀ s ∈ w'.stories, s.ids.Nodup) ∧
    (∀ j : Nat, j < w.stories.length → w'.stories[j]? = w.stories[j]?) ∧
    ∃ d r, w'.stories[down]? = some d ∧ w'.stories[repair]? = some r ∧ d.idField = "CELL_ID" ∧
      r.idField = "CELL_ID" ∧ d.autoReset = true ∧ r.autoReset = false ∧ d.ids = r.ids ∧
      ∀ id, ¬ Scheduled r id := by
  simp only [Uganda.createStories, Act.bind_eq_ok, Act.pure_eq_ok] at h
  obtain ⟨d0, w1, h1, r0, w2, h2, e, rfl⟩ := h
  obtain ⟨rfl, rfl⟩ := Prod.mk.inj e
  obtain ⟨-, p, d, wd, hp1, hd, hl1, hw1⟩ := createStory_ok h1
  obtain ⟨-, p', r, wr, hp2, hr, hl2, hw2⟩ := createStory_ok h2
  obtain ⟨_, d1, _, -, -, -, a1, a2, -, -, a3, -, a4, -, -, a5, -, a6⟩ := newStory_ok hd
  obtain ⟨_, r1, _, -, -, -, b1, b2, -, -, b3, -, b4, -, -, b5, -, b6⟩ := newStory_ok hr
  have ids0 : ∀ {t : Story σ} {q : Population},
      t.timer = q.ids.map (fun i => (⟨i, defaultState, some (-1)⟩ : TimerRow)) → t.ids = q.ids := by
    intro t q e
    simp [Story.ids, e, Function.comp_def]
  rcases b6 with ⟨-, rfl, -⟩ | ⟨b6, -⟩
  case inr => simp [repairStory] at b6
  rcases a6 with ⟨a6, -⟩ | ⟨-, a6⟩
  case inl => simp [breakDownStory] at a6
  obtain ⟨-, -, a7, a8, -⟩ := resetStory_ok a6
  have hpops : w1.pops = w.pops := by rw [hw1]; exact a2.pops
  obtain rfl : p = p' := by
    rw [hpops] at hp2
    exact Option.some.inj (hp1.symm.trans hp2)
  have hd' : d.ids = p.ids := a8.trans (ids0 a5)
  have hr' : r.ids = p.ids := ids0 b5
  have hpn : p.ids.Nodup := hp p (List.mem_of_getElem? hp1)
  have hst1 : w1.stories = w.stories ++ [d] := by rw [hw1]; exact congrArg (· ++ [d]) a1
  have hst2 : w2.stories = w.stories ++ [d, r] := by
    rw [hw2]
    change wr.stories ++ [r] = _
    rw [b1, hst1]; simp
  have ed : d0 = w.stories.length := by rw [hl1, a1]
  have er : r0 = w.stories.length + 1 := by rw [hl2, b1, hst1]; simp
  refine ⟨ed, er, fun s hs => ?_, fun j hj => ?_, d, r, ?_, ?_, ?_, b3, ?_, b4, hd'.trans hr'.symm,
    fun id => ?_⟩
  · rw [hst2] at hs
    simp only [List.mem_append, List.mem_cons, List.not_mem_nil, or_false] at hs
    rcases hs with hs | rfl | rfl
    · exact hn s hs
    · rw [hd']; exact hpn
    · rw [hr']; exact hpn
  · rw [hst2, List.getElem?_append_left hj]
  · rw [hst2, ed]; simp
  · rw [hst2, er]; simp
  · rw [a7]; exact a3
  · rw [a7]; exact a4
  · rintro ⟨q, hq, hc⟩
    by_cases hid : id ∈ p.ids
    · rw [timerOf_eq, initial_row hid r b5] at hc
      simp only [Option.map_some, Option.some.injEq] at hc
      rw [← hc] at hq
      exact absurd hq (by norm_num)
    · rw [timerOf_eq] at hc
      obtain ⟨x, hx, -⟩ := Option.map_eq_some_iff.1 hc
      exact hid (hr' ▸ row?_id hx ▸ List.mem_map_of_mem (row?_mem hx))

/-- every repair of a cell follows a break-down of this cell -/
theorem C97_repairs_follow_breakdowns {w w1 w' : World σ γ} {down repair : Nat}
    (hn : ∀ s ∈ w.stories, s.ids.Nodup) (hp : ∀ p ∈ w.pops, p.ids.Nodup)
    (hc : Uganda.createStories env u w = .ok (down, repair) w1)
    (hdown : chains[down]? = some (breakDownOps env u fmt down repair))
    (hrepair : chains[repair]? = some (repairOps env u fmt repair))
    (hothers : ∀ (j : Nat) ops, j ≠ down → j ≠ repair → chains[j]? = some ops →
      ∀ op ∈ ops, BuiltIn env (· ≠ repair) (· ≠ repair) op)
    {evs : List (Int × Event)} (h : Played env chains w1 evs w') :
    ∃ deeds, Deeds env chains w1 deeds w' ∧
      deeds.map (fun d => (d.date, some d.story)) =
        (evs.map fun e => (e.1, e.2.story)).filter (fun e => e.2.isSome) ∧
      ∀ before after id, deeds = before ++ after →
        timesActed [repair] id before ≤ timesActed [down] id before := by
  obtain ⟨e1, e2, n1, -, d, r, hd, hr, f1, f2, -, f3, -, f4⟩ := uganda_created hn hp hc
  have hne : down ≠ repair := by omega
  have hclear : Clear "CELL_ID" "NEW_HEALTH_LEVEL" ∧ Clear "CELL_ID" "TIME" :=
    ⟨⟨by decide, by decide, by decide⟩, by decide, by decide, by decide⟩
  obtain ⟨deeds, g1, g2, g3⟩ := C97_in_a_run (b := repair) (triggers := [down]) (by
    intro j ops s hj hs
    by_cases hjd : j = down
    · subst hjd
      refine ⟨fun _ op hop => ?_, fun h => absurd (by simp) h⟩
      rw [hdown] at hj; cases hj
      rw [hd] at hs; cases hs
      rw [f1]
      simp only [breakDownOps, List.mem_cons, List.not_mem_nil, or_false] at hop
      rcases hop with rfl | rfl | rfl | rfl | rfl | rfl
      · exact .other (.randomValues _ _ _ hclear.1 fun _ _ => trivial)
      · exact .other (.effect (.attrUpdate _ _ _ _))
      · exact .resetField
      · exact .other (.timestamp _ _ _ hclear.2)
      · exact .other (.fieldLogger _ _ _ trivial)
      · exact .other (.effect (.maybeBackToDefault _))
    · refine ⟨fun h => absurd (List.mem_singleton.1 h) hjd, fun _ op hop => ?_⟩
      by_cases hjr : j = repair
      · subst hjr
        rw [hrepair] at hj; cases hj
        simp only [repairOps, List.mem_cons, List.not_mem_nil, or_false] at hop
        rcases hop with rfl | rfl | rfl | rfl | rfl
        · exact .adder (.randomValues _ _)
        · exact .effect (.attrUpdate _ _ _ _)
        · exact .adder (.timestamp _ _)
        · exact .fieldLogger _ _ _
        · exact .effect (.maybeBackToDefault _)
      · exact hothers j ops hjd hjr hj op hop) (by simpa using hne.symm) n1 hr f3 h
  exact ⟨deeds, g1, g2, fun before after id he => g3 before after id he (f4 id)⟩

end

/-! ### Non-vacuity -/

/-- a circus of three cells -/
def exCells : World Nat (AnyGen Nat) :=
  { exWorld with
    stories := []
    pops := [{ exPop with attributes := [("HEALTH", ⟨[(.str "a", .num 1), (.str "b", .num 1), (.str "c", .num 1)]⟩)] }] }

/-- break-downs and repairs happen as soon as they are scheduled -/
def exUganda : Uganda.Parts :=
  ⟨0, .constant (.num 0), .constant (.num 1), .constant (.num 1), .constant (.num 0), .constant (.num 1)⟩

example : ((Uganda.createStories exEnv exUganda).value? exCells) = some (0, 1) := by decide +kernel

example : (∀ s ∈ exCells.stories, s.ids.Nodup) ∧ (∀ p ∈ exCells.pops, p.ids.Nodup) := by
  simp [exCells, exPop]

/-- the cells break down, then they are repaired: timers of the two stories after the creation, after
the first execution of the break-downs, and after the first execution of the repairs -/
example : ((do let _ ← Uganda.createStories exEnv exUganda).world? exCells).map World.timers =
      some [[some 0, some 0, some 0], [some (-1), some (-1), some (-1)]] ∧
    ((do
      let _ ← Uganda.createStories exEnv exUganda
      let _ ← World.execute exEnv (Uganda.breakDownOps exEnv exUganda (fun n => .num n) 0 1) 0).world?
        exCells).map World.timers =
      some [[some 0, some 0, some 0], [some 0, some 0, some 0]] ∧
    ((do
      let _ ← Uganda.createStories exEnv exUganda
      let _ ← World.execute exEnv (Uganda.breakDownOps exEnv exUganda (fun n => .num n) 0 1) 0
      let _ ← World.execute exEnv (Uganda.repairOps exEnv exUganda (fun n => .num n) 1) 1).world?
        exCells).map World.timers =
      some [[some 0, some 0, some 0], [some (-1), some (-1), some (-1)]] := by
  decide +kernel

/-- the operations of the break-downs are as asked by `C97_trigger_schedules` -/
example : ∀ op ∈ [Ops.randomValues exEnv exUganda.unhealthy "NEW_HEALTH_LEVEL" none,
      Ops.attrUpdate (σ := Nat) (γ := AnyGen Nat) exUganda.cells "HEALTH" "CELL_ID" "NEW_HEALTH_LEVEL"],
    KeepsRows exEnv (· ≠ 1) (· ≠ 1) op ∧
      OpWithin exEnv (· ≠ 1) (· ≠ 1) (Clear "CELL_ID") (fun _ => True) (fun _ => True) op := by
  intro op hop
  simp only [List.mem_cons, List.not_mem_nil, or_false] at hop
  rcases hop with rfl | rfl
  · exact ⟨.adder (.randomValues _ _),
      .randomValues _ _ _ ⟨by decide, by decide, by decide⟩ fun _ _ => trivial⟩
  · exact ⟨.effect (.attrUpdate _ _ _ _), .effect (.attrUpdate _ _ _ _)⟩

end Trumania
