import Verif.Proofs.Circus
import Verif.Spec.BuiltIn

/-! The built-in operations do not move the clock. -/

namespace Trumania
open Spec World Act
variable {σ γ : Type} {env : Env σ γ} {F Z : Nat → Prop}

/-- date and step of the clock -/
def World.date (w : World σ γ) : Int × Int := (w.clock.current, w.clock.step)

theorem setRel_date (i : Nat) (r : Relationship σ) :
    Fixes date (setRel i r : Act (World σ γ) Unit) := Fixes.modify fun _ => rfl
theorem setPop_date (i : Nat) (r : Population) :
    Fixes date (setPop i r : Act (World σ γ) Unit) := Fixes.modify fun _ => rfl
theorem setStory_date (i : Nat) (r : Story σ) :
    Fixes date (setStory i r : Act (World σ γ) Unit) := Fixes.modify fun _ => rfl
theorem setGen_date (i : Nat) (g : γ) :
    Fixes date (setGen i g : Act (World σ γ) Unit) := Fixes.modify fun _ => rfl
theorem getPop_date (i : Nat) : Fixes date (getPop i : Act (World σ γ) _) := fetch_fixes _ _
theorem getRel_date (i : Nat) : Fixes date (getRel i : Act (World σ γ) _) := fetch_fixes _ _
theorem getGen_date (i : Nat) : Fixes date (getGen i : Act (World σ γ) _) := fetch_fixes _ _
theorem getStory_date (i : Nat) : Fixes date (getStory i : Act (World σ γ) _) := fetch_fixes _ _

theorem generate_date (g : GenRef) (n : Rat) : Fixes date (generate env g n) :=
  call_fixes setGen_date _ _

theorem observe_date (g : GenRef) (n : List Cell) : Fixes date (observe env g n) :=
  call_fixes setGen_date _ _

theorem resetStory_date (s : Story σ) (ids : Option (List Val)) :
    Fixes date (resetStory env s ids) := by
  rw [resetStory.eq_def]
  split
  · exact (Fixes.ofPy _).bind fun x => Fixes.pure _
  · exact (getGen_date _).bind fun g => (Fixes.ofPy _).bind fun x =>
      (setGen_date _ _).bind fun _ => Fixes.pure _
  · exact (Fixes.ofPy _).bind fun x => Fixes.pure _

theorem resetTimers_date (i : Nat) (ids : Option (List Val)) :
    Fixes date (World.resetTimers env i ids) :=
  (getStory_date _).bind fun _ => (resetStory_date _ _).bind fun _ => setStory_date _ _

theorem onStory_date (i : Nat) (f : Story σ → Py (Story σ)) :
    Fixes date (onStory i f : Act (World σ γ) Unit) :=
  (getStory_date _).bind fun _ => (Fixes.ofPy _).bind fun _ => setStory_date _ _

theorem sideEffect_date {effect : Frame → Act (World σ γ) Unit} (h : ∀ d, Fixes date (effect d))
    (d : Frame) : Fixes date (Ops.sideEffect effect d) := (h d).bind fun _ => Fixes.pure _

theorem addColumns_date {how : JoinKind} {build : Frame → Act (World σ γ) Frame}
    (h : ∀ d, Fixes date (build d)) (d : Frame) : Fixes date (Ops.addColumns how build d) :=
  (h d).bind fun _ => Fixes.pure _

theorem onRel_date (rel : Nat) (f : Relationship σ → Frame → Py (Relationship σ)) (d : Frame) :
    Fixes date (Ops.onRel rel f d : Act (World σ γ) _) :=
  sideEffect_date (fun _ => Fixes.ite (Fixes.pure _) ((getRel_date _).bind fun _ =>
    (Fixes.ofPy _).bind fun _ => setRel_date _ _)) d

theorem onAttribute_date (pop : Nat) (name : String) (f : Attribute → Py Attribute) :
    Fixes date (Ops.onAttribute pop name f : Act (World σ γ) _) :=
  (getPop_date _).bind fun _ => (Fixes.ofPy _).bind fun _ => (Fixes.ofPy _).bind fun _ =>
    setPop_date _ _

theorem getTimestamp_date {R : Rng σ} {c c' : Clock σ γ} {n : Nat} {r : Bool} {l : List Int}
    (h : c.getTimestamp R n r = .ok (l, c')) : c'.current = c.current ∧ c'.step = c.step := by
  rw [Clock.getTimestamp] at h
  split at h
  · obtain ⟨x, -, h2⟩ := bind_eq_ok.1 h
    cases h2
    exact ⟨rfl, rfl⟩
  · cases h
    exact ⟨rfl, rfl⟩

theorem timestamp_date (name : String) (random : Bool) (fmt : Int → Cell) (d : Frame) :
    Fixes date (Ops.timestamp env name random fmt d) := by
  refine addColumns_date (fun d => ?_) d
  intro w
  rw [Act.after, Act.bind_ok (FS.get_ok w)]
  cases h : w.clock.getTimestamp env.R d.rows.length random with
  | error e => rfl
  | ok x =>
    obtain ⟨l, c'⟩ := x
    obtain ⟨h1, h2⟩ := getTimestamp_date h
    rw [Act.bind_ok (Act.ofPy_ok rfl w)]
    simp only
    rw [Act.bind_ok (FS.set_ok w _)]
    cases Frame.ofColumn d.index name (l.map fmt) <;>
      simp only [Act.ofPy] <;> exact Prod.ext h1 h2

theorem columnAdder_date {name : String} {op : Op (World σ γ)} (h : ColumnAdder env name op)
    (d : Frame) : Fixes date (op d) := by
  cases h with
  | randomValues g q =>
    refine addColumns_date (fun d => Fixes.bind ?_ fun _ => Fixes.ofPy _) d
    cases q with
    | none => exact generate_date _ _
    | some f =>
      exact (Fixes.ofPy _).bind fun _ => (generate_date _ _).bind fun _ => (Fixes.ofPy _).bind
        fun _ => Fixes.pure _
  | randomValuesFromField g f =>
    exact addColumns_date (fun d => (Fixes.ofPy _).bind fun _ => (observe_date _ _).bind fun _ =>
      Fixes.ofPy _) d
  | timestamp r f => exact timestamp_date _ _ _ _
  | neighbourhoodSize rel f =>
    exact addColumns_date (fun d => (Fixes.ofPy _).bind fun _ => (getRel_date _).bind fun _ =>
      Fixes.ofPy _) d
  | applySeries s f => exact addColumns_date (fun d => Fixes.ofPy _) d

theorem sideEffectOp_date {op : Op (World σ γ)} (h : SideEffect env F Z op) (d : Frame) :
    Fixes date (op d) := by
  cases h with
  | relAdd => exact onRel_date _ _ _
  | relAddGrouped => exact onRel_date _ _ _
  | relRemove => exact onRel_date _ _ _
  | attrUpdate =>
    exact sideEffect_date (fun _ => Fixes.ite (Fixes.pure _) ((Fixes.ofPy _).bind fun _ =>
      (Fixes.ofPy _).bind fun _ => onAttribute_date _ _ _)) d
  | attrAdd =>
    exact sideEffect_date (fun _ => Fixes.ite (Fixes.pure _) ((Fixes.ofPy _).bind fun _ =>
      (Fixes.ofPy _).bind fun _ => (Fixes.ofPy _).bind fun _ => onAttribute_date _ _ _)) d
  | popUpdate =>
    exact sideEffect_date (fun _ => (Fixes.ofPy _).bind fun _ => (getPop_date _).bind fun _ =>
      (Fixes.ofPy _).bind fun _ => setPop_date _ _) d
  | forceActNext =>
    exact sideEffect_date (fun _ => Fixes.ite (Fixes.pure _) ((Fixes.ofPy _).bind fun _ =>
      (Fixes.ofPy _).bind fun _ => onStory_date _ _)) d
  | resetTimers =>
    exact sideEffect_date (fun _ => (Fixes.ofPy _).bind fun _ => resetTimers_date _ _) d
  | transitToState =>
    exact sideEffect_date (fun _ => (Fixes.ofPy _).bind fun _ => (Fixes.ofPy _).bind fun _ =>
      onStory_date _ _) d
  | maybeBackToDefault => exact sideEffect_date (fun _ => onStory_date _ _) d

theorem runOps_date {ops : List (Op (World σ γ))} (h : ∀ op ∈ ops, ∀ d, Fixes date (op d)) :
    ∀ acc, Fixes date (runOps env.logSet acc ops) := by
  induction ops with
  | nil => intro acc; exact Fixes.pure _
  | cons op ops ih =>
    intro acc
    refine Fixes.bind ?_ fun acc => ih (fun o ho => h o (List.mem_cons_of_mem _ ho)) acc
    exact (h op List.mem_cons_self _).bind fun _ => (Fixes.ofPy _).bind fun _ => Fixes.pure _

theorem builtIn_date {op : Op (World σ γ)} (h : BuiltIn env F Z op) :
    ∀ d, Fixes date (op d) := by
  induction h with
  | adder h => exact columnAdder_date h
  | effect h => exact sideEffectOp_date h
  | fieldLogger => exact fun d => (Fixes.ofPy _).bind fun _ => Fixes.pure _
  | dropRow => exact fun d => (Fixes.ofPy _).bind fun _ => Fixes.pure _
  | applyFrame => exact addColumns_date (fun d => Fixes.ofPy _)
  | selectOne =>
    exact addColumns_date (fun d => (Fixes.ofPy _).bind fun _ => (getRel_date _).bind fun _ =>
      (Fixes.ofPy _).bind fun _ => (setRel_date _ _).bind fun _ => Fixes.pure _)
  | selectAll =>
    exact fun d => (Fixes.ofPy _).bind fun _ => (getRel_date _).bind fun _ => Fixes.pure _
  | selectMany =>
    exact addColumns_date (fun d => (Fixes.ofPy _).bind fun _ => (Fixes.ofPy _).bind fun _ =>
      (getRel_date _).bind fun _ => (Fixes.ofPy _).bind fun _ => (setRel_date _ _).bind fun _ =>
      Fixes.pure _)
  | lookup => exact addColumns_date (fun d => (getPop_date _).bind fun _ => Fixes.ofPy _)
  | chain ops h ih => exact fun d => runOps_date ih _

theorem execute_date {ops : List (Op (World σ γ))} (h : ∀ op ∈ ops, ∀ d, Fixes date (op d))
    (i : Nat) : Fixes date (execute env ops i) := by
  refine (onStory_date _ _).bind fun _ => (getStory_date _).bind fun s => Fixes.bind ?_ fun _ =>
    (onStory_date _ _).bind fun _ => Fixes.pure _
  rw [runActive]
  refine Fixes.ite (Fixes.pure _) ((runOps_date h _).bind fun _ => Fixes.bind ?_ fun _ => Fixes.pure _)
  exact (getStory_date _).bind fun _ => Fixes.ite (resetTimers_date _ _) (onStory_date _ _)

end Trumania
