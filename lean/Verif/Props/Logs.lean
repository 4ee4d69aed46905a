import Verif.Proofs.Logs
import Verif.Spec.Instances
import Verif.Props.Db

/-!
# Property C78 (logs loaded again)
-/

namespace Trumania
open Spec
variable {σ γ : Type} {env : Env σ γ} {chains : List (List (Op (World σ γ)))}
  {F : TextFormat} {fmt : Cell → Text} {folder : Path}

/-- **C78** Whenever loading the logs succeeds, the loaded ids are those under which rows were logged,
once each. -/
theorem C78_ids (so : SetOrder String) {fs0 fs : FS} {logs : Logs} {d : Dict String Frame}
    (hab : ∀ q, Below folder q → Absent fs0 q) (hw : LogsWritten fmt folder fs0 logs fs)
    (h : loadAllLogs F so fs folder = .ok d) :
    (d.map Prod.fst).Nodup ∧ ∀ id, id ∈ d.map Prod.fst ↔ loggedRows id logs ≠ [] := by
  have hne : logs ≠ [] := by
    rintro rfl
    obtain ⟨names, h1, -⟩ := bind_eq_ok.1 h
    rw [FS.list] at h1
    split at h1
    · next hd =>
      rw [FS.isDir] at hd
      split at hd
      · next hg =>
        rcases (hw.content _ _).1 (Dict.get?_mem hg) with h2 | ⟨h2, -⟩ | ⟨_, -, h2, -⟩
        · exact hab _ (FS.below_refl _) _ h2
        · exact h2 rfl
        · exact h2 rfl
      · cases hd
    · cases h1
  have hv := logs_view hab hw hne
  obtain ⟨names, h1, h2⟩ := bind_eq_ok.1 h
  obtain ⟨items, h3, h4⟩ := bind_eq_ok.1 h2
  cases h4
  rw [FS.list] at h1
  split at h1
  swap
  · cases h1
  cases h1
  rw [mapM_ok_iff] at h3
  have hstem : ∀ name ∈ so.order (fs.children folder), name = stem name ++ ".csv" ∧
      loggedRows (stem name) logs ≠ [] := by
    intro name hm
    rw [so.mem, FS.mem_children_get?, hv] at hm
    obtain ⟨n, hn⟩ := Option.ne_none_iff_exists'.1 hm
    obtain ⟨x, hx, rfl, -⟩ := Population.filesView_some hn
    rw [stem_csv]
    exact ⟨rfl, (mem_logFiles.1 hx).1⟩
  have hmap : items.map Prod.fst = (so.order (fs.children folder)).map stem := by
    clear hstem h h2
    generalize so.order (fs.children folder) = names at h3
    induction h3 with
    | nil => rfl
    | cons hx _ ih =>
      obtain ⟨t, -, hx⟩ := bind_eq_ok.1 hx
      obtain ⟨l, -, hx⟩ := bind_eq_ok.1 hx
      cases hx
      rw [List.map_cons, List.map_cons, ih]
  have hnd : (items.map Prod.fst).Nodup := by
    rw [hmap]
    refine List.Nodup.map_on ?_ (so.nodup _)
    intro a ha b hb e
    rw [(hstem a ha).1, (hstem b hb).1, e]
  rw [Dict.ofPairs_nodup hnd]
  refine ⟨hnd, fun id => ?_⟩
  rw [hmap, List.mem_map]
  constructor
  · rintro ⟨name, hm, rfl⟩
    exact (hstem name hm).2
  · intro hr
    refine ⟨id ++ ".csv", ?_, stem_csv id⟩
    rw [so.mem, FS.mem_children_get?, hv]
    exact Population.filesView_mem (x := (id, fullLog fmt id logs)) (mem_logFiles.2 ⟨hr, rfl⟩)

/-- **C78** After a run, `load_all_logs` gives, for each id under which rows were logged, the table of all
the logged rows, with their values, in the order of the executions, whatever the order in which the
folder is listed; and nothing else. Missing: the logs that CSV files do not restore (`StorableLog`): see
C60, C63, and `C78_counterexample`. -/
theorem C78_load_all_logs_partial (hF : F.Lawful) (so so' : SetOrder String) (fuel depth : Nat)
    (duration : Int) (delete : Bool) (s s' : Sys σ γ) (hk : ∀ ops ∈ chains, ∀ op ∈ ops, KeepsDate op)
    (ht : Tree s.fs) (hd : DepthBelow s.fs folder depth) (hfuel : depth < fuel)
    (h : Sys.run env F.cell folder so fuel chains duration delete s = .ok () s') :
    ∃ n events, s.circus.world.clock.nIterations duration = .ok n ∧
      Played env chains s.circus.world events s'.circus.world ∧
      events.map (fun e => (e.1, e.2.story)) =
        schedule s.circus.world.clock.current s.circus.world.clock.step n.toNat chains.length ∧
      (emitted events = [] → loadAllLogs F so' s'.fs folder = .error .environmentError) ∧
      (emitted events ≠ [] →
        (∀ id, loggedRows id (emitted events) ≠ [] →
          StorableLog F id (emitted events) (headerOf id (emitted events))) →
        ∃ d, loadAllLogs F so' s'.fs folder = .ok d ∧ ∀ id f, Dict.get? d id = some f ↔
          loggedRows id (emitted events) ≠ [] ∧
          f = fullTable id (emitted events) (headerOf id (emitted events))) := by
  obtain ⟨n, events, fs0, h1, h2, h3, hab, -, hw⟩ :=
    C60_logs so fuel depth duration delete s s' hk ht hd hfuel h
  refine ⟨n, events, h1, h2, h3, ?_, ?_⟩
  · intro he
    rw [loadAllLogs, FS.list, if_neg]
    · rfl
    · intro hdir
      rw [FS.isDir] at hdir
      split at hdir
      · next hg =>
        rcases (hw.content _ _).1 (Dict.get?_mem hg) with h2 | ⟨h2, -⟩ | ⟨_, -, h2, -⟩
        · exact hab _ (FS.below_refl _) _ h2
        · exact h2 he
        · exact h2 (by rw [he]; rfl)
      · cases hdir
  · intro hne hs
    generalize emitted events = logs at *
    have hv := logs_view hab hw hne
    have hdir : s'.fs.isDir folder = true := by
      have := hv []
      rw [List.append_nil] at this
      exact FS.isDir_of this
    have hload : ∀ x ∈ logFiles F.cell logs, readLog F x.2 =
        .ok (fullTable x.1 logs (headerOf x.1 logs)) := by
      intro x hx
      obtain ⟨hr, e⟩ := mem_logFiles.1 hx
      rw [e]
      exact readLog_storable hF hr (hs _ hr)
    by_cases hl : logFiles F.cell logs = []
    · have hnone : ∀ id, loggedRows id logs = [] := by
        intro id
        by_contra hr
        have : (id, fullLog F.cell id logs) ∈ logFiles F.cell logs := mem_logFiles.2 ⟨hr, rfl⟩
        rw [hl] at this
        cases this
      have hempty : so'.order (s'.fs.children folder) = [] := by
        rw [List.eq_nil_iff_forall_not_mem]
        intro name hm
        rw [so'.mem, FS.mem_children_get?, hv, hl] at hm
        exact hm rfl
      refine ⟨[], ?_, ?_⟩
      · rw [loadAllLogs, FS.list, if_pos hdir, bind_ok, hempty]
        rfl
      · intro id f
        rw [hnone id]
        simp
    · obtain ⟨d, hd1, hd2, hd3, hd4⟩ := Population.loadItems_spec so' (load := readLog F)
        (fs := s'.fs) (folder := folder) (l := logFiles F.cell logs)
        (fun r => by rw [hv, Population.itemsView, if_neg hl])
        (by rw [logFiles_fst]; exact loggedIds_nodup logs) (fun x hx => ⟨_, hload x hx⟩)
      refine ⟨d, ?_, ?_⟩
      · rw [Population.loadItems, if_pos] at hd1
        · exact hd1
        · have := hv []
          rw [List.append_nil] at this
          exact FS.pathExists_of this
      · intro id f
        constructor
        · intro hg
          cases hx : Dict.get? (logFiles F.cell logs) id with
          | none => rw [hd3 id hx] at hg; cases hg
          | some t =>
            obtain ⟨a, ha1, ha2⟩ := hd4 id t hx
            rw [hg] at ha2
            cases ha2
            have hm := Dict.get?_mem hx
            rw [hload _ hm] at ha1
            cases ha1
            exact ⟨(mem_logFiles.1 hm).1, rfl⟩
        · rintro ⟨hr, rfl⟩
          have hm : (id, fullLog F.cell id logs) ∈ logFiles F.cell logs := mem_logFiles.2 ⟨hr, rfl⟩
          have hx : Dict.get? (logFiles F.cell logs) id = some (fullLog F.cell id logs) := by
            rw [Dict.get?_eq_some_iff (show ((logFiles F.cell logs).map Prod.fst).Nodup from by
              rw [logFiles_fst]; exact loggedIds_nodup logs)]
            exact hm
          obtain ⟨a, ha1, ha2⟩ := hd4 id _ hx
          rw [hload _ hm] at ha1
          cases ha1
          exact ha2

/-- **C78** counterexample: in a column of texts made of digits, such as phone numbers, the texts become
numbers and lose their leading zeros: two different numbers are mixed up. -/
theorem C78_counterexample :
    (readLog Decimal.format (fullLog Decimal.format.cell "calls"
      [("calls", ⟨["A", "B"], [⟨.num 0, [.str "0475", .str "475"]⟩]⟩)])) =
      .ok ⟨["A", "B"], [⟨.num 0, [.num 475, .num 475]⟩]⟩ := by decide +kernel

/-- **C78** A loaded table has the columns of the header of its file, at their ranks and all different: a
name that is not empty is kept, an empty one becomes "Unnamed: " followed by its rank. -/
theorem C78_column_names {t : Text} {f : Frame} {names : List Text} {lines : List (List Text)}
    (ht : readCsv t = .ok (names, lines)) (h : readLog F t = .ok f) :
    f.cols.length = names.length ∧ f.cols.Nodup ∧
    (∀ (j : Nat) (name : Text), names[j]? = some name → name ≠ [] → f.cols[j]? = some (String.ofList name)) ∧
    (∀ j : Nat, names[j]? = some [] → f.cols[j]? = some ("Unnamed: " ++ toString j)) := by
  obtain ⟨file, h1, h2⟩ := bind_eq_ok.1 h
  rw [ht] at h1
  cases h1
  split at h2
  · next hn =>
    cases h2
    refine ⟨by simp [tableOf], hn, fun j name hj hne => ?_, fun j hj => ?_⟩
    · simp only [tableOf, List.getElem?_map, List.getElem?_zipIdx, hj, Option.map_some, columnName]
      rw [if_neg hne]
    · simp only [tableOf, List.getElem?_map, List.getElem?_zipIdx, hj, Option.map_some, columnName,
        if_true, Nat.zero_add]
  · cases h2

/-- its hypotheses hold of a file with an empty name -/
example : readCsv "A,,B\n1,2,3\n".toList = .ok (["A".toList, [], "B".toList], [["1".toList, "2".toList, "3".toList]]) ∧
    readLog Decimal.format "A,,B\n1,2,3\n".toList =
      .ok ⟨["A", "Unnamed: 1", "B"], [⟨.num 0, [.num 1, .num 2, .num 3]⟩]⟩ := by decide +kernel

/-! ### A run -/

/-- five steps, then the logs are loaded -/
example : ((Sys.run exEnv Decimal.format.cell ["a"] (SetOrder.dedup String) 5 exChains
      (5 * 3600 * nsPerSec) true).world? exSys).map (fun s =>
        match loadAllLogs Decimal.format (SetOrder.rdedup String) s.fs ["a"] with
        | .ok d => d
        | .error _ => []) =
    some [("calls", ⟨["CALLER"], [⟨.num 0, [.str "a"]⟩, ⟨.num 1, [.str "b"]⟩, ⟨.num 2, [.str "a"]⟩]⟩)] := by
  decide +kernel

/-- its logs meet `StorableLog` -/
example : StorableLog Decimal.format "calls"
    [("calls", ⟨["CALLER"], [⟨.str "a", [.str "a"]⟩, ⟨.str "b", [.str "b"]⟩]⟩),
     ("calls", ⟨["CALLER"], []⟩), ("calls", ⟨["CALLER"], [⟨.str "a", [.str "a"]⟩]⟩)] ["CALLER"] where
  sameColumns := by decide +kernel
  someColumn := by decide
  distinct := by decide
  names := by
    intro c hc
    simp only [List.mem_cons, List.not_mem_nil, or_false] at hc
    subst hc
    exact ⟨by decide, by simp [CleanText]⟩
  notBlank := by
    rintro ⟨t, ht, -, hb⟩
    obtain rfl : "CALLER".toList = t := by simpa using ht
    exact absurd (hb 'C' (by decide)) (by decide)
  noMark := by
    intro c hc
    obtain rfl : "CALLER" = c := by simpa using hc
    rintro ⟨r, hr⟩
    exact absurd (congrArg List.head? hr) (by simp)
  width := by decide +kernel
  values := by
    intro j hj
    obtain rfl : j = 0 := by simpa using hj
    refine ⟨[.str "a", .str "b", .str "a"], by decide +kernel,
      .inr (.inr ⟨?_, ⟨"a", by simp, by decide +kernel⟩, "a", by simp, by decide +kernel⟩)⟩
    intro v hv
    simp only [List.mem_cons, List.not_mem_nil, or_false] at hv
    rcases hv with rfl | rfl | rfl <;> exact .inr ⟨_, rfl, by simp [CleanText], by decide +kernel⟩
  visible := by
    intro r hr s hs
    simp [loggedRows, tablesOf] at hr
    rcases hr with rfl | rfl | rfl
    · obtain rfl : "a" = s := by simpa using hs
      simp
    · obtain rfl : "b" = s := by simpa using hs
      simp
    · obtain rfl : "a" = s := by simpa using hs
      simp

end Trumania
