import Verif.Proofs.TypedRun
import Verif.Props.GeneratorSizes
import Verif.Props.Stock

/-!
# Property C101 (well-formed circuses run without raising)
-/

namespace Trumania
open Spec World
variable {σ γ : Type} {env : Env σ γ} {S : Sig γ} {M : Val → Prop} {Γ Γ' : Ctx}

/-- **C101** a safe operation, on story data of the expected kind in a well-formed circus, does not raise:
its output has the announced columns, and the circus is still well-formed. -/
theorem C101_safe_operation {op : Op (World σ γ)} (h : Safe env S M Γ op Γ') {data : Frame}
    {w : World σ γ} (hd : Typed M Γ data) (hw : Fits env S w) :
    ∃ out logs w', op data w = .ok (out, logs) w' ∧ Typed M Γ' out ∧ Fits env S w' := safe_run h hd hw

/-- **C101** the operation that `set_operations` appends is safe -/
theorem C101_set_operations {i : Nat} {K : StoryKind} (hi : S.stories[i]? = some K)
    {ops : List (Op (World σ γ))} (h : SafeStory env S K ops) :
    SafeStory env S K (Ops.setOperations env i ops) := by
  obtain ⟨Γ', h⟩ := h
  exact ⟨Γ', safeOps_snoc h (.maybeBackToDefault hi fun _ h => h)⟩

/-- **C101** the execution of a story with safe operations does not raise, and keeps the circus
well-formed -/
theorem C101_story {i : Nat} {K : StoryKind} (hi : S.stories[i]? = some K) {w : World σ γ}
    (hw : Fits env S w) {ops : List (Op (World σ γ))} (ho : SafeStory env S K ops) :
    ∃ logs w', World.execute env ops i w = .ok logs w' ∧ Fits env S w' := execute_safe hi hw ho

/-- **C101** A run of a well-formed circus, the stories of which have safe operations, completes, for any
duration, and leaves a well-formed circus: it could be run again. The folder of the logs must be absent or
deletable, and no file may be in the way of its creation. -/
theorem C101_run {fmt : Cell → Text} {folder : Path} {chains : List (List (Op (World σ γ)))}
    (so : SetOrder String) (fuel d : Nat) (duration : Int) (delete : Bool) (s : Sys σ γ)
    (hw : Fits env S s.circus.world) (hstep : S.step ≠ 0)
    (ho : List.Forall₂ (SafeStory env S) S.stories chains)
    (ht : Tree s.fs) (hroot : At s.fs [] .dir) (hne : folder ≠ [])
    (hc : ∀ q t, Below q folder → At s.fs q (.file t) → q = folder)
    (hd : DepthBelow s.fs folder d) (hfuel : d < fuel)
    (hdel : delete = true ∨ Absent s.fs folder) :
    ∃ s', Sys.run env fmt folder so fuel chains duration delete s = .ok () s' ∧
      Fits env S s'.circus.world := by
  have hn : ∃ n, s.circus.world.clock.nIterations duration = .ok n := by
    rw [Clock.nIterations, hw.step]
    have : totalSeconds S.step ≠ 0 := by
      rw [totalSeconds]
      have h1 : (S.step : Rat) ≠ 0 := by exact_mod_cast hstep
      have h2 : (nsPerSec : Rat) ≠ 0 := by decide +kernel
      exact div_ne_zero h1 h2
    simp only [if_neg this]
    exact ⟨_, rfl⟩
  obtain ⟨n, hn⟩ := hn
  rw [Sys.run_eq hn ht (fun r m hm => Nat.lt_of_le_of_lt (hd r m hm) hfuel) (by omega) hdel]
  have h0 := FS.without_tree ht folder
  have hab : ∀ q, Below folder q → Absent (FS.without s.fs folder) q :=
    fun q hq n hn => (FS.mem_without.1 hn).2 hq
  obtain ⟨s', h1, h2⟩ := Sys.runSteps_safe (env := env) (S := S) (fmt := fmt) h0 (hab folder ⟨[], (List.append_nil _).symm⟩)
    (FS.mem_without.2 ⟨hroot, by
      rintro ⟨r, hr⟩
      exact hne (List.append_eq_nil_iff.1 hr.symm).1⟩)
    (by
      intro a t hb hn
      obtain ⟨h1, h2⟩ := FS.mem_without.1 hn
      exact h2 (by rw [hc a t hb h1]; exact ⟨[], by simp⟩))
    ho n.toNat (s := ⟨s.circus, FS.without s.fs folder⟩) ⟨hw, [], Sys.written_nil h0⟩
  exact ⟨s', h1, h2.1⟩

/-! ### The generators of the library -/

section
variable {σ : Type} {env : Env σ (AnyGen σ)} {R : Rng σ} {S : Sig (AnyGen σ)} {i : Nat}

theorem natSize (n : Nat) : ((n : Nat) : Rat).den = 1 ∧ 0 ≤ (n : Rat) :=
  ⟨Rat.den_natCast n, by exact_mod_cast Nat.zero_le n⟩

/-- **C101** the kinds of generators that always answer, with the kind of their values; they are kept by
the increments of the clock -/
theorem C101_sequence (hs : env.sem = AnyGen.sem R) (hi : S.gens[i]? = some fun g => ∃ s, g = .seq s) :
    GenOk env S (.ref i) .size (fun c => ∃ t, c = .scalar (.str t)) := by
  refine .refSize hi ?_
  rintro g n ⟨s, rfl⟩
  rw [hs]
  have e : AnyGen.generate R (.seq s) (n : Rat) =
      .ok ((s.generate n).1.map Cell.str, .seq (s.generate n).2) := rfl
  refine ⟨_, _, e, ⟨_, rfl⟩, AnyGen.C74_as_many_as_asked e, ?_⟩
  intro c hc
  obtain ⟨t, -, rfl⟩ := List.mem_map.1 hc
  exact ⟨t, rfl⟩

theorem C101_uniform (hs : env.sem = AnyGen.sem R) {lo hi : Rat}
    (h : S.gens[i]? = some fun g => ∃ s, g = .uniform lo hi s) :
    GenOk env S (.ref i) .size (fun c => ∃ q, c = .scalar (.num q)) := by
  refine .refSize h ?_
  rintro g n ⟨s, rfl⟩
  rw [hs]
  have e : AnyGen.generate R (.uniform lo hi s) (n : Rat) = .ok
      ((R.uniform s (n : Rat).num.toNat).1.map (fun u => Cell.num (lo + (hi - lo) * u)),
        .uniform lo hi (R.uniform s (n : Rat).num.toNat).2) := if_pos (natSize n)
  refine ⟨_, _, e, ⟨_, rfl⟩, AnyGen.C74_as_many_as_asked e, ?_⟩
  intro c hc
  obtain ⟨t, -, rfl⟩ := List.mem_map.1 hc
  exact ⟨_, rfl⟩

theorem choice_answers (hs : env.sem = AnyGen.sem R) {a : List Val} (ha : a ≠ []) (s : σ) (n : Nat) :
    ∃ cells g', env.sem.generate (.choice a none s) (n : Rat) = .ok (cells, g') ∧ (∃ s, g' = .choice a none s) ∧
      cells.length = n ∧ ∀ c ∈ cells, IdIn (· ∈ a) c := by
  rw [hs]
  have hn : (n : Rat).num.toNat = n := by rw [Rat.num_natCast]; simp
  have hr := R.randint_range s a.length n (List.length_pos_iff.2 ha)
  have hv : ∃ v, fancy a (R.randint s a.length n).1 = .ok v ∧ ∀ x ∈ v, x ∈ a := by
    have : ∃ v, fancy a (R.randint s a.length n).1 = .ok v := by
      rw [fancy]
      refine mapM_isOk fun i hi => ⟨a[i]'(hr i hi), ?_⟩
      rw [List.getElem?_eq_getElem (hr i hi)]
    obtain ⟨v, hv⟩ := this
    refine ⟨v, hv, fun x hx => ?_⟩
    rw [fancy] at hv
    obtain ⟨i, -, h⟩ := forall₂_exists_left (mapM_ok_iff.1 hv) hx
    split at h
    · rename_i h1
      cases h
      exact List.mem_of_getElem? h1
    · cases h
  obtain ⟨v, h1, h2⟩ := hv
  have e : AnyGen.generate R (.choice a none s) (n : Rat) = .ok
      (v.map Cell.scalar, .choice a none (R.randint s a.length n).2) := by
    refine (if_pos (natSize n)).trans (bind_eq_ok.2 ⟨(v, (R.randint s a.length n).2), ?_, rfl⟩)
    rw [hn]
    refine bind_eq_ok.2 ⟨R.randint s a.length n, if_neg ?_, bind_eq_ok.2 ⟨v, h1, rfl⟩⟩
    rintro ⟨h0, -⟩
    exact ha (List.length_eq_zero_iff.1 h0)
  refine ⟨_, _, e, ⟨_, rfl⟩, AnyGen.C74_as_many_as_asked e, ?_⟩
  intro c hc
  obtain ⟨t, ht, rfl⟩ := List.mem_map.1 hc
  exact ⟨t, rfl, h2 t ht⟩

theorem C101_choice (hs : env.sem = AnyGen.sem R) {a : List Val} (ha : a ≠ [])
    (h : S.gens[i]? = some fun g => ∃ s, g = .choice a none s) :
    GenOk env S (.ref i) .size (IdIn (· ∈ a)) := by
  refine .refSize h ?_
  rintro g n ⟨s, rfl⟩
  exact choice_answers hs ha s n

theorem asNums {cells : List Cell} (h : ∀ c ∈ cells, ∃ q, c = .scalar (.num q)) :
    ∃ qs, cells.mapM Cell.asNum = .ok qs ∧ qs.length = cells.length := by
  obtain ⟨qs, hqs⟩ := mapM_isOk (f := Cell.asNum) (l := cells) fun c hc => by
    obtain ⟨q, rfl⟩ := h c hc
    exact ⟨q, rfl⟩
  exact ⟨qs, hqs, (mapM_ok_iff.1 hqs).length_eq.symm⟩

theorem cyclic_answers (hs : env.sem = AnyGen.sem R) (t : CyclicTimer σ) {obs : List Cell}
    (ho : ∀ c ∈ obs, ∃ q, c = .scalar (.num q)) :
    ∃ cells g', env.sem.observe (.cyclic t) obs = .ok (cells, g') ∧ (∃ t, g' = .cyclic t) ∧
      cells.length = obs.length ∧ ∀ c ∈ cells, IsAmount c := by
  rw [hs]
  obtain ⟨qs, h1, h2⟩ := asNums ho
  have e : AnyGen.observe R (.cyclic t) obs =
      .ok ((t.generate R qs).1.map AnyGen.timerCell, .cyclic (t.generate R qs).2) :=
    bind_eq_ok.2 ⟨qs, h1, rfl⟩
  refine ⟨_, _, e, ⟨_, rfl⟩, AnyGen.C75_one_per_observation e, ?_⟩
  intro c hc
  obtain ⟨o, -, rfl⟩ := List.mem_map.1 hc
  cases o with
  | none => exact .inl rfl
  | some q => exact .inr ⟨q, rfl⟩

theorem C101_cyclic_timer (hs : env.sem = AnyGen.sem R)
    (h : S.gens[i]? = some fun g => ∃ t, g = .cyclic t) :
    GenOk env S (.ref i) (.series fun c => ∃ q, c = .scalar (.num q)) IsAmount := by
  refine .refSeries h ?_
  rintro g obs ⟨t, rfl⟩ ho
  exact cyclic_answers hs t ho

theorem C101_trigger (hs : env.sem = AnyGen.sem R) {mapper : List Rat → List Rat}
    (hm : ∀ l, (mapper l).length = l.length)
    (h : S.gens[i]? = some fun g => ∃ s, g = .trigger mapper s) :
    GenOk env S (.ref i) (.series fun c => ∃ q, c = .scalar (.num q)) IsBool := by
  refine .refSeries h ?_
  rintro g obs ⟨s, rfl⟩ ho
  rw [hs]
  obtain ⟨qs, h1, h2⟩ := asNums ho
  have ht : ∃ bs s', triggerGenerate R mapper s qs = .ok (bs, s') :=
    ⟨_, _, if_pos (by rw [hm, R.uniform_length])⟩
  obtain ⟨bs, s', ht⟩ := ht
  have e : AnyGen.observe R (.trigger mapper s) obs = .ok (bs.map Cell.bool, .trigger mapper s') :=
    bind_eq_ok.2 ⟨qs, h1, bind_eq_ok.2 ⟨_, ht, rfl⟩⟩
  refine ⟨_, _, e, ⟨_, rfl⟩, AnyGen.C75_one_per_observation e, ?_⟩
  intro c hc
  obtain ⟨b, -, rfl⟩ := List.mem_map.1 hc
  exact ⟨b, rfl⟩

end

/-! ### Non-vacuity: a circus and its stories -/

/-- the ids of the members -/
def exMembers (v : Val) : Prop := v ∈ [Val.str "a", .str "b", .str "c"]

def exKind (idField : String) : StoryKind :=
  ⟨exMembers, fun v => v ∈ [Val.str "default", .str "busy"], idField⟩

/-- a sequence of ids; items "1", "2", "3"; ages; two stories -/
def exSig : Sig (AnyGen Nat) where
  step := 3600 * nsPerSec
  gens := [fun g => ∃ s, g = .seq s]
  rels := [⟨fun v => v ∈ [Val.str "1", .str "2", .str "3"], fun _ => False, true⟩,
    ⟨fun v => v ∈ [Val.str "1", .str "2", .str "3"], fun _ => False, true⟩]
  pops := [[("AGE", ⟨exMembers, IsAmount⟩)]]
  stories := [exKind "CALLER", exKind "PAYER"]

theorem exDealers_fits : Fits exEnv exSig exDealers where
  step := rfl
  ticks := by
    intro I hI g hg
    simp only [exSig, List.mem_singleton] at hI
    subst hI
    obtain ⟨s, rfl⟩ := hg
    exact ⟨s, rfl⟩
  gens := .cons ⟨_, rfl⟩ .nil
  rels := .cons ⟨exLinks_reachable, by decide +kernel, by decide +kernel, by decide +kernel, fun _ h => h.elim⟩
    (.cons ⟨.new 7, by decide +kernel, by decide +kernel, by decide +kernel, fun _ h => h.elim⟩ .nil)
  pops := by
    refine .cons ⟨fun name => Iff.rfl, ?_⟩ .nil
    intro name k a hk ha
    have hname : name = "AGE" := by
      by_contra hne
      have : Dict.get? [("AGE", (⟨exMembers, IsAmount⟩ : AttKind))] name = none := by
        simp [Dict.get?, Ne.symm hne]
      rw [this] at hk
      cases hk
    subst hname
    cases hk
    cases ha
    refine ⟨fun v hv => hv, ?_⟩
    intro x hx
    simp only [List.mem_cons, List.not_mem_nil, or_false] at hx
    rcases hx with rfl | rfl | rfl <;> exact .inr ⟨_, rfl⟩
  stories := by
    have hp : ∀ v st, (exKind "CALLER").members v → (exKind "CALLER").states st →
        ∃ d p, exStory.params.get? v = some d ∧ d.get? st = some p := by
      intro v st hv hst
      simp only [exKind, exMembers, List.mem_cons, List.not_mem_nil, or_false] at hv hst
      rcases hv with rfl | rfl | rfl <;> rcases hst with rfl | rfl <;> exact ⟨_, _, rfl, rfl⟩
    refine .cons ⟨by decide +kernel, fun v => Iff.rfl, by simp [exKind], ?_, hp, rfl, .inl ⟨_, rfl⟩,
      .constSeries (.inr ⟨_, rfl⟩)⟩ (.cons ⟨by decide +kernel, fun v => Iff.rfl, by simp [exKind], ?_, hp, rfl,
      .inl ⟨_, rfl⟩, .constSeries (.inr ⟨_, rfl⟩)⟩ .nil)
    · intro r hr
      simp only [exStory, List.mem_cons, List.not_mem_nil, or_false] at hr
      rcases hr with rfl | rfl | rfl <;> simp [exKind, defaultState]
    · intro r hr
      simp only [exStory2, List.mem_cons, List.not_mem_nil, or_false] at hr
      rcases hr with rfl | rfl | rfl <;> simp [exKind, defaultState]

/-- the acting members buy an item from "x", get older, make the other story act, and are logged -/
def exBuying : List (Op (World Nat (AnyGen Nat))) :=
  [Ops.randomValues exEnv (.ref 0) "ID" none,
    Ops.randomValues exEnv (.constant (.str "x")) "DEALER" none,
    Ops.selectOne exEnv 0 "DEALER" "ITEM" true true true none,
    Ops.relAdd exEnv 1 "CALLER" "ITEM",
    Ops.lookup 0 "CALLER" [("AGE", "CALLER_AGE")],
    Ops.attrAdd 0 "AGE" "CALLER" "CALLER_AGE" false,
    Ops.forceActNext 1 "CALLER",
    Ops.transitToState 0 "CALLER" (.const (.str "busy")),
    Ops.fieldLogger "sales" ["CALLER", "ITEM", "CALLER_AGE"] []]

theorem exBuying_safe : SafeStory exEnv exSig (exKind "CALLER") exBuying := by
  refine ⟨_, .cons (.randomValues (C101_sequence rfl rfl) (by decide))
    (.cons (.randomValues (P := IsId) (.constSize ⟨_, rfl⟩) (by decide))
    (.cons (.selectOne (K := ⟨fun v => v ∈ [Val.str "1", .str "2", .str "3"], fun _ => False, true⟩) rfl
      (fun _ => ⟨rfl, fun _ h => h⟩) ?_ (by simp) (by decide))
    (.cons (.relAdd (K := ⟨fun v => v ∈ [Val.str "1", .str "2", .str "3"], fun _ => False, true⟩) rfl ?_ ?_)
    (.cons (.lookup (P := [("AGE", ⟨exMembers, IsAmount⟩)]) rfl ?_ ?_ (by decide))
    (.cons (.attrAdd (P := [("AGE", ⟨exMembers, IsAmount⟩)]) (k := ⟨exMembers, IsAmount⟩) rfl rfl
      (fun _ => Iff.rfl) ?_ ?_)
    (.cons (.forceActNext (K := exKind "PAYER") rfl ?_ (by simp))
    (.cons (.transitToState (K := exKind "CALLER") rfl ?_ (by simp [exKind]) (by simp))
    (.cons (.fieldLogger (by decide)) .nil))))))))⟩
  · exact ⟨_, List.mem_append.2 (.inr (.head _)), fun _ _ _ h => h⟩
  · exact ⟨_, .head _, fun i c _ h => ⟨i, h⟩⟩
  · exact ⟨_, List.mem_append.2 (.inr (.head _)), fun _ _ _ h => h⟩
  · exact ⟨_, .head _, fun i c _ h => ⟨i, h⟩⟩
  · intro x hx
    simp only [List.mem_singleton] at hx
    subst hx
    exact ⟨_, rfl, _, .head _, fun i c hi h => ⟨i, h, hi⟩⟩
  · exact ⟨_, .head _, fun i c hi h => .inr ⟨i, h, hi⟩⟩
  · refine ⟨_, List.mem_append.2 (.inr (.head _)), fun _ c _ h => ?_⟩
    obtain ⟨k, hk, hv⟩ := h
    cases hk
    exact hv
  · exact ⟨_, .head _, fun i c hi h => .inr ⟨i, h, hi⟩⟩
  · exact ⟨_, .head _, fun i c hi h => .inr ⟨i, h, hi⟩⟩

/-- that circus, and no file -/
def exSale101 : Sys Nat (AnyGen Nat) := ⟨⟨"example", 1, 0, 3600 * nsPerSec, exDealers, [], []⟩, [([], .dir)]⟩

/-- the circus of the example, with these operations, runs for any duration -/
example (duration : Int) : ∃ s', Sys.run exEnv exFmt ["logs"] (SetOrder.dedup String) 1
      [Ops.setOperations exEnv 0 exBuying, Ops.setOperations exEnv 1 []] duration false
      exSale101 = .ok () s' := by
  obtain ⟨s', h, -⟩ := C101_run (env := exEnv) (S := exSig) (fmt := exFmt) (folder := ["logs"])
    (chains := [Ops.setOperations exEnv 0 exBuying, Ops.setOperations exEnv 1 []])
    (SetOrder.dedup String) 1 0 duration false exSale101 exDealers_fits
    (by decide +kernel)
    (.cons (C101_set_operations (K := exKind "CALLER") rfl exBuying_safe)
      (.cons (C101_set_operations (K := exKind "PAYER") rfl ⟨_, .nil⟩) .nil))
    ⟨by decide +kernel, by simp [At, exSale101]⟩ (by simp [At, exSale101]) (by simp) (by simp [At, exSale101]) (by simp [DepthBelow, At, exSale101])
    (by omega) (.inr (by simp [Absent, At, exSale101]))
  exact ⟨s', h⟩

/-! ### The conditions matter -/

/-- two rows about the same member -/
def exTwice : Frame := ⟨["CALLER", "FRIEND", "AGE"],
  [⟨.str "a", [.str "a", .str "b", .num 1]⟩, ⟨.str "c", [.str "c", .str "b", .num 2]⟩]⟩

/-- **C101** updating the attribute of the members in another column than the acting ones raises when two
rows name the same member; adding to it does not. -/
theorem C101_update_of_same_member_raises :
    (Ops.attrUpdate 0 "AGE" "FRIEND" "AGE" exTwice).value? exDealers = none ∧
    (Ops.attrUpdate 0 "AGE" "CALLER" "AGE" exTwice).value? exDealers ≠ none ∧
    (Ops.attrAdd 0 "AGE" "FRIEND" "AGE" false exTwice).value? exDealers ≠ none := by
  decide +kernel

/-- **C101** nothing is raised when members are put in a state that the story does not have, but the next
reset of their timers raises: the run stops. -/
theorem C101_unknown_state_raises_later :
    (World.execute exEnv [Ops.transitToState 1 "CALLER" (.const (.str "gone"))] 0).value? exDealers ≠ none ∧
    (do
      let _ ← World.execute exEnv [Ops.transitToState 1 "CALLER" (.const (.str "gone"))] 0
      World.resetTimers exEnv 1 none : Act (World Nat (AnyGen Nat)) Unit).value? exDealers = none := by
  decide +kernel

/-- **C101** a column that exists already makes the story data unusable: two columns of that name get
suffixes, and reading it raises. -/
theorem C101_same_column_raises :
    (World.execute exEnv [Ops.randomValues exEnv (.constant (.num 1)) "CALLER" none] 0).value? exDealers ≠ none ∧
    (World.execute exEnv [Ops.randomValues exEnv (.constant (.num 1)) "CALLER" none,
      Ops.fieldLogger "calls" ["CALLER"] []] 0).value? exDealers = none := by
  decide +kernel

end Trumania
