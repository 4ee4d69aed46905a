import Verif.Proofs.Run
import Verif.Props.Csv
import Verif.Props.FileSystem
import Verif.Props.Circus

/-!
# C59, C60, C61: runs and their logs
-/

namespace Trumania
open Spec
variable {σ γ : Type} {env : Env σ γ} {chains : List (List (Op (World σ γ)))}
  {fmt : Cell → Text} {folder : Path}

/-- C59. A run of `n` iterations consists of exactly the events of `schedule`: at each of the dates
`start, start + step, ...`, every story once, in order of creation, and then one increment of the clock.
The clock ends at `start + n * step`. `KeepsDate` holds of all the built-in operations
(`C59_builtIn_keepsDate`). -/
theorem C59_run (so : SetOrder String) (fuel : Nat) (duration : Int) (delete : Bool) (s s' : Sys σ γ)
    (n : Int) (hk : ∀ ops ∈ chains, ∀ op ∈ ops, KeepsDate op)
    (hn : s.circus.world.clock.nIterations duration = .ok n)
    (h : Sys.run env fmt folder so fuel chains duration delete s = .ok () s') :
    ∃ events, Played env chains s.circus.world events s'.circus.world ∧
      events.map (fun e => (e.1, e.2.story)) =
        schedule s.circus.world.clock.current s.circus.world.clock.step n.toNat chains.length ∧
      s'.circus.world.clock.current =
        s.circus.world.clock.current + n.toNat * s.circus.world.clock.step := by
  have hrun : ∃ fs, Sys.runSteps env fmt folder chains n.toNat ⟨s.circus, fs⟩ = .ok () s' := by
    rw [Sys.run, Act.bind_ok (FS.get_ok s), Act.bind_ok (Act.ofPy_ok hn s)] at h
    split at h
    · split at h
      · obtain ⟨_, s1, h1, h2⟩ := Act.bind_eq_ok.1 h
        obtain ⟨fs, -, rfl⟩ := Sys.onFiles_eq_ok.1 h1
        exact ⟨fs, h2⟩
      · cases h
    · exact ⟨s.fs, h⟩
  obtain ⟨fs, hrun⟩ := hrun
  obtain ⟨events, w', h1, h2, -, h4, -, h6⟩ := Sys.runSteps_ok hk hrun
  have hw : w' = s'.circus.world := by rw [h6]
  subst hw
  exact ⟨events, h1, h2, h4⟩

/-- C59. The built-in operations leave the clock alone. -/
theorem C59_builtIn_keepsDate {F Z : Nat → Prop} (op : Op (World σ γ)) (h : BuiltIn env F Z op) :
    KeepsDate op := fun d w =>
  ⟨congrArg Prod.fst (builtIn_date h d w), congrArg Prod.snd (builtIn_date h d w)⟩

/-- C60. After a run, the files are the ones of before without the folder of the logs, plus, in that
folder, for each log id under which rows were emitted, one file with one header and all the emitted
rows, once each, in the order of the executions; there is no file for the other log ids. -/
theorem C60_logs (so : SetOrder String) (fuel d : Nat) (duration : Int) (delete : Bool)
    (s s' : Sys σ γ) (hk : ∀ ops ∈ chains, ∀ op ∈ ops, KeepsDate op) (ht : Tree s.fs)
    (hd : DepthBelow s.fs folder d) (hfuel : d < fuel)
    (h : Sys.run env fmt folder so fuel chains duration delete s = .ok () s') :
    ∃ n events fs0, s.circus.world.clock.nIterations duration = .ok n ∧
      Played env chains s.circus.world events s'.circus.world ∧
      events.map (fun e => (e.1, e.2.story)) =
        schedule s.circus.world.clock.current s.circus.world.clock.step n.toNat chains.length ∧
      (∀ q, Below folder q → Absent fs0 q) ∧ (∀ q, ¬ Below folder q → SameAt s.fs fs0 q) ∧
      LogsWritten fmt folder fs0 (emitted events) s'.fs := by
  obtain ⟨n, hn⟩ := Sys.run_ok_iterations h
  rw [Sys.run_eq hn ht (fun r m hm => Nat.lt_of_le_of_lt (hd r m hm) hfuel) (by omega)
    (Sys.run_ok_allowed ht h)] at h
  obtain ⟨events, w', h1, h2, h3, -, -, h6⟩ := Sys.runSteps_ok hk h
  have hw : w' = s'.circus.world := by rw [h6]
  subst hw
  have hab : ∀ q, Below folder q → Absent (FS.without s.fs folder) q :=
    fun q hq n hn => (FS.mem_without.1 hn).2 hq
  have ht0 := FS.without_tree ht folder
  have hw := Sys.saveAll_written ht0 (hab _ ⟨[], by simp⟩) (Sys.written_nil ht0) h3
  refine ⟨n, events, FS.without s.fs folder, hn, h1, h2, hab, ?_, hw⟩
  intro q hq m
  rw [FS.mem_without]
  exact ⟨fun h => h.1, fun h => ⟨h, hq⟩⟩

/-- C60. The file of a log id exists iff rows were emitted; it then has one header and all the rows. -/
theorem C60_file (fs0 fs : FS) (logs : Logs) (hab : ∀ q, Below folder q → Absent fs0 q)
    (hw : LogsWritten fmt folder fs0 logs fs) (id : String) (t : Text) :
    At fs (csvOf folder id) (.file t) ↔ loggedRows id logs ≠ [] ∧ t = fullLog fmt id logs := by
  rw [hw.content]
  constructor
  · rintro (h | ⟨-, h, -⟩ | ⟨id', h1, h2, h3⟩)
    · exact absurd h (hab _ ⟨_, rfl⟩ _)
    · cases h
    · obtain rfl := Sys.csvOf_inj h1
      exact ⟨h2, Node.file.inj h3⟩
  · rintro ⟨h1, rfl⟩
    exact .inr (.inr ⟨id, rfl, h1, rfl⟩)

/-- C60. Reading a log file gives back the emitted cells. Missing: texts that CSV files do not restore
(see C63), and tables of different columns under the same log id, the rows of which end up under the
columns of the first one (`C60_counterexample_columns`). -/
theorem C60_read_back_partial (logs : Logs) (id : String) (cols : List String)
    (hrows : loggedRows id logs ≠ [])
    (hcols : ∀ f ∈ tablesOf id logs, f.rows ≠ [] → f.cols = cols)
    (hlen : ∀ r ∈ loggedRows id logs, r.cells.length = cols.length)
    (hc : CleanLine (cols.map String.toList))
    (hb : ∀ t ts, cols.map String.toList = t :: ts → ¬ StartsWithBom t)
    (hr : ∀ r ∈ loggedRows id logs, CleanLine (r.cells.map fmt)) :
    readCsv (fullLog fmt id logs) =
      .ok (cols.map String.toList, (loggedRows id logs).map fun r => r.cells.map fmt) := by
  have hh : headerOf id logs = cols := by
    rw [headerOf]
    cases hf : (tablesOf id logs).find? (fun f => !f.rows.isEmpty) with
    | some f => exact hcols f (List.mem_of_find?_eq_some hf) (by simpa using List.find?_some hf)
    | none =>
      exfalso
      apply hrows
      rw [loggedRows, List.flatMap_eq_nil_iff]
      intro f hm
      simpa using List.find?_eq_none.1 hf f hm
  rw [fullLog, hh]
  refine C63_roundtrip_partial hc hb ?_ ?_
  · intro r hm
    obtain ⟨r', hm', rfl⟩ := List.mem_map.1 hm
    exact hr r' hm'
  · intro r hm
    obtain ⟨r', hm', rfl⟩ := List.mem_map.1 hm
    simpa using hlen r' hm'

/-- texts of the example -/
def exFmt : Cell → Text
  | .scalar (.str s) => s.toList
  | _ => []

/-- C60, counterexample: the second table has another column, its values are read in the first one. -/
theorem C60_counterexample_columns :
    readCsv (fullLog exFmt "calls"
      [("calls", ⟨["FROM"], [⟨.num 0, [.str "a"]⟩]⟩), ("calls", ⟨["TO"], [⟨.num 0, [.str "b"]⟩]⟩)]) =
      .ok (["FROM".toList], [["a".toList], ["b".toList]]) := by decide +kernel

/-- C61. Without the permission to delete, a run on an existing folder raises and changes nothing: no
file, no object of the circus. -/
theorem C61_refused (so : SetOrder String) (fuel : Nat) (duration : Int) (s : Sys σ γ) (ht : Tree s.fs)
    (n : Node) (h : At s.fs folder n) :
    ∃ e, Sys.run env fmt folder so fuel chains duration false s = .error e s ∧
      (s.circus.world.clock.step ≠ 0 → e = .environmentError) := by
  refine ⟨_, Sys.run_refused so fuel duration s ((FS.pathExists_iff ht.unique).2 ⟨n, h⟩), ?_⟩
  intro hs
  rw [Clock.nIterations]
  have : totalSeconds s.circus.world.clock.step ≠ 0 := by
    rw [totalSeconds]
    have h1 : (s.circus.world.clock.step : Rat) ≠ 0 := by exact_mod_cast hs
    have h2 : (nsPerSec : Rat) ≠ 0 := by decide +kernel
    exact div_ne_zero h1 h2
  simp only [if_neg this]

/-- C61. With that permission, the run is the one on the files without the folder: nothing of the
previous content matters or survives. -/
theorem C61_delete (so : SetOrder String) (fuel d : Nat) (duration : Int) (s : Sys σ γ)
    (ht : Tree s.fs) (hd : DepthBelow s.fs folder d) (hfuel : d < fuel)
    (n : Int) (hn : s.circus.world.clock.nIterations duration = .ok n) :
    ∃ fs0, (∀ q, Below folder q → Absent fs0 q) ∧ (∀ q, ¬ Below folder q → SameAt s.fs fs0 q) ∧
      Sys.run env fmt folder so fuel chains duration true s =
        Sys.run env fmt folder so fuel chains duration false ⟨s.circus, fs0⟩ := by
  have hab : ∀ q, Below folder q → Absent (FS.without s.fs folder) q :=
    fun q hq n hn => (FS.mem_without.1 hn).2 hq
  refine ⟨FS.without s.fs folder, hab, ?_, ?_⟩
  · intro q hq m
    rw [FS.mem_without]
    exact ⟨fun h => h.1, fun h => ⟨h, hq⟩⟩
  · rw [Sys.run_eq hn ht (fun r m hm => Nat.lt_of_le_of_lt (hd r m hm) hfuel) (by omega) (.inl rfl),
      Sys.run_eq (s := ⟨s.circus, FS.without s.fs folder⟩) hn (FS.without_tree ht folder)
        (fun r m hm => absurd hm (hab _ ⟨r, rfl⟩ m)) (by omega) (.inr (hab _ ⟨[], by simp⟩))]
    have : FS.without (FS.without s.fs folder) folder = FS.without s.fs folder := by
      simp [FS.without, List.filter_filter]
    rw [this]

/-- C61. Whatever the outcome of a run, even if an operation raises in the middle: out of the folder of
the logs, nothing changes, but for the creation of the missing directories above it. -/
theorem C61_outside (so : SetOrder String) (fuel d : Nat) (duration : Int) (delete : Bool)
    (s : Sys σ γ) (ht : Tree s.fs) (hd : DepthBelow s.fs folder d) (hfuel : d < fuel) (q : Path)
    (hq : ¬ Below folder q) :
    SameAt s.fs ((Sys.run env fmt folder so fuel chains duration delete).after s).fs q ∨
    (Below q folder ∧ Absent s.fs q ∧ ∀ n,
      At ((Sys.run env fmt folder so fuel chains duration delete).after s).fs q n → n = .dir) := by
  have same : ∀ {e : Err}, Sys.run env fmt folder so fuel chains duration delete s = .error e s →
      SameAt s.fs ((Sys.run env fmt folder so fuel chains duration delete).after s).fs q := by
    intro e h1
    rw [Act.after_error h1]
    exact fun n => Iff.rfl
  cases hn : s.circus.world.clock.nIterations duration with
  | error e =>
    left
    refine same (e := e) ?_
    rw [Sys.run, Act.bind_ok (FS.get_ok s), hn, Act.bind_err (Act.ofPy_error rfl s)]
  | ok n =>
    by_cases hdel : delete = true ∨ Absent s.fs folder
    · have hk : Sys.OutsideKept folder s.fs
          ((Sys.run env fmt folder so fuel chains duration delete).after s).fs := by
        rw [Act.after, Sys.run_eq hn ht (fun r m hm => Nat.lt_of_le_of_lt (hd r m hm) hfuel)
          (by omega) hdel]
        refine Sys.runSteps_outside n.toNat _ ⟨FS.without_tree ht folder, ?_, ?_⟩
        · exact fun q n hq hn => FS.mem_without.2 ⟨hn, hq⟩
        · exact fun q n hq hn => .inl (FS.mem_without.1 hn).1
      by_cases he : ∃ m, At s.fs q m
      · left
        intro m
        refine ⟨fun h => ?_, hk.kept q m hq⟩
        rcases hk.new q m hq h with h1 | ⟨-, -, h1⟩
        · exact h1
        · obtain ⟨m, hm⟩ := he
          exact absurd hm (h1 m)
      · have ha : Absent s.fs q := fun m hm => he ⟨m, hm⟩
        by_cases hb : Below q folder
        · refine .inr ⟨hb, ha, fun m hm => ?_⟩
          rcases hk.new q m hq hm with h1 | ⟨h1, -, -⟩
          · exact absurd h1 (ha m)
          · exact h1
        · left
          intro m
          refine ⟨fun h => ?_, hk.kept q m hq⟩
          rcases hk.new q m hq h with h1 | ⟨-, h1, -⟩
          · exact h1
          · exact absurd h1 hb
    · left
      rw [not_or, Bool.not_eq_true] at hdel
      obtain ⟨rfl, hx⟩ := hdel
      have : s.fs.pathExists folder = true := by
        rw [FS.pathExists_iff ht.unique]
        by_contra hc
        exact hx fun m hm => hc ⟨m, hm⟩
      exact same (Sys.run_refused so fuel duration s this)

/-! ### A run -/

/-- "calls" logs the callers, "recharges" does nothing -/
def exChains : List (List (Op (World Nat (AnyGen Nat)))) :=
  [[Ops.fieldLogger "calls" ["CALLER"] []], []]

def exSys : Sys Nat (AnyGen Nat) := ⟨exCircus, exampleFiles⟩

example : ∀ ops ∈ exChains, ∀ op ∈ ops, KeepsDate op := by
  intro ops ho op hop
  simp only [exChains, List.mem_cons, List.not_mem_nil, or_false] at ho
  rcases ho with rfl | rfl
  · simp only [List.mem_cons, List.not_mem_nil, or_false] at hop
    subst hop
    exact C59_builtIn_keepsDate (env := exEnv) (F := fun _ => True) (Z := fun _ => True) _
      (.fieldLogger _ _ _)
  · cases hop

/-- five steps on the folder "a", which is deleted first -/
example : ((Sys.run exEnv exFmt ["a"] (SetOrder.dedup String) 5 exChains (5 * 3600 * nsPerSec)
      true).world? exSys).map (fun s => (s.fs, s.circus.world.clock.current)) =
    some ([([], .dir), (["ab"], .dir), (["ab", "f.csv"], .file ['z']), (["a"], .dir),
      (["a", "calls.csv"], .file "CALLER\na\nb\na\n".toList)], 5 * 3600 * nsPerSec) := by
  decide +kernel

/-- the same run is refused without the permission -/
example : (Sys.run exEnv exFmt ["a"] (SetOrder.dedup String) 5 exChains (5 * 3600 * nsPerSec)
    false).raised? exSys = some .environmentError := by
  decide +kernel

end Trumania
