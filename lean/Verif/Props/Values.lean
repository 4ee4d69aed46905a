import Verif.Proofs.Values

/-!
# Property C108: the values in the logs are values of the generators
-/

namespace Trumania
open Spec World
variable {σ : Type} {env : Env σ (AnyGen σ)} {F Z : Nat → Prop}

/-- **C108** one call: the values of a generator of a circus are values it can give. -/
theorem C108_call (hsem : env.sem = AnyGen.sem env.R) {g : GenRef} {q : Request}
    {w w' : World σ (AnyGen σ)} {v : List Cell} (h : call env g q w = .ok v w') :
    ∀ c ∈ v, givesRef w.gens g c := call_gives hsem (later_refl _) h

theorem runs_later (hsem : env.sem = AnyGen.sem env.R) {gens0 : List (AnyGen σ)}
    {ops : List (Op (World σ (AnyGen σ)))} (hops : ∀ op ∈ ops, BuiltIn env F Z op) {data out : Frame}
    {ls : List Logs} {w w' : World σ (AnyGen σ)} (hw : Later gens0 w.gens)
    (h : Runs ops data w out ls w') : Later gens0 w'.gens := by
  induction h with
  | nil => exact hw
  | cons h _ ih =>
    refine ih (fun o ho => hops o (by simp [ho])) ?_
    have hI := later_inv hsem gens0
    exact apis_gens hI.toGenKept (builtIn_respects hI.toGenKept (hops _ (by simp)) _ _ _ _ h) hw

/-- the ids of the timers are distinct, and the field of the members is not the one drawn -/
def Spec.Distinct (name : String) (w : World σ (AnyGen σ)) : Prop :=
  ∀ s ∈ w.stories, (s.timer.map (·.id)).Nodup ∧ s.idField ≠ name

theorem Spec.Distinct.same {name : String} {w w' : World σ (AnyGen σ)} (h : SameStories w w')
    (hw : Spec.Distinct name w) : Spec.Distinct name w' :=
  h.forall (P := fun s : Story σ => (s.timer.map (fun r : TimerRow => r.id)).Nodup ∧ s.idField ≠ name)
    (fun s s' e hs => by
      refine ⟨?_, ?_⟩
      · have := e.2
        rw [Story.ids, Story.ids] at this
        rw [this]; exact hs.1
      · rw [e.1]; exact hs.2) hw

theorem draws_builtIn {g : GenRef} {name logId : String} {ops : List (Op (World σ (AnyGen σ)))}
    (h : Spec.Draws env F Z g name logId ops) : ∀ op ∈ ops, BuiltIn env F Z op := by
  obtain ⟨pre, mid, post, cols, put, -, hput, rfl, h1, h2⟩ := h
  intro op hop
  simp only [List.mem_append, List.mem_cons] at hop
  rcases hop with hop | rfl | hop | rfl | hop
  · exact (h1 op (by simp [hop])).builtIn
  · rcases hput with rfl | ⟨o, rfl⟩
    · exact .adder (.randomValues g none)
    · exact .adder (.randomValuesFromField g o)
  · exact (h1 op (by simp [hop])).builtIn
  · exact .fieldLogger _ _ _
  · exact (h2 op hop).builtIn

theorem draws_exec (hsem : env.sem = AnyGen.sem env.R) {gens0 : List (AnyGen σ)} {j : Nat} {g : GenRef}
    {name logId : String} {ops : List (Op (World σ (AnyGen σ)))}
    (hops : Spec.Draws env F Z g name logId ops) {w w' : World σ (AnyGen σ)} {logs : Logs}
    (hg : Later gens0 w.gens) (hw : Spec.Distinct name w) (h : execute env ops j w = .ok logs w') :
    ∀ c ∈ (tablesOf logId logs).flatMap (cellsOf · name), givesRef gens0 g c := by
  obtain ⟨s, w1, hs, h1, h2, h3, -⟩ := execute_gen_at (i := 0) h
  obtain ⟨s', hs', h2⟩ := h2
  rw [hs] at hs'; cases hs'
  rcases h2 with ⟨-, rfl, rfl⟩ | ⟨-, last, h2⟩
  · simp [tablesOf]
  obtain ⟨hwf, ls, hr, hl⟩ := (chain_sequential env.logSet ops _ last _ w1).1 logs h2
  obtain ⟨pre, mid, post, cols, put, hc, hput, rfl, hpm, hpost⟩ := hops
  have hpre : ∀ op ∈ pre, OpWithin env F Z (Clear name) (fun _ => True) (· ≠ logId) op :=
    fun o ho => hpm o (by simp [ho])
  have hmid : ∀ op ∈ mid, OpWithin env F Z (Clear name) (fun _ => True) (· ≠ logId) op :=
    fun o ho => hpm o (by simp [ho])
  obtain ⟨d1, w2, l1, lb, r1, r2, rfl⟩ := runs_split hr
  cases r2 with
  | @cons _ _ _ d2 _ _ w3 _ la ls1 ha r3 =>
  obtain ⟨d3, w4, l2, lc, r4, r5, rfl⟩ := runs_split r3
  cases r5 with
  | @cons _ _ _ d4 _ _ w5 _ lf l3 hf r6 =>
  have rect0 : Rect (⟨[s.idField], actingRows s⟩ : Frame) := by
    intro r hr
    simp only [actingRows, List.mem_filterMap] at hr
    obtain ⟨t, -, ht⟩ := hr
    split at ht
    · cases ht; rfl
    · cases ht
  have hall : ∀ {l : List (Op (World σ (AnyGen σ)))},
      (∀ op ∈ l, OpWithin env F Z (Clear name) (fun _ => True) (· ≠ logId) op) →
      ∀ op ∈ l, BuiltIn env F Z op := fun h op ho => (h op ho).builtIn
  have nd1 : d1.index.Nodup := (C44_in_execution (post := []) (by simpa using hall hpre)
    (hw s (List.mem_of_getElem? hs)).1 r1).1
  obtain ⟨rect1, k1, -⟩ := C82_field_kept (fun _ h => h) hpre rect0 r1
  have hname : name ∉ d1.cols := by
    rw [k1]
    simpa using fun e : name = s.idField => (hw s (List.mem_of_getElem? hs)).2 e.symm
  have hg2 : Later gens0 w2.gens := runs_later hsem (hall hpre) (show Later gens0 (started w j s).gens from hg) r1
  -- the values
  have hadd : ColumnAdder env name put := by
    rcases hput with rfl | ⟨o, rfl⟩
    · exact .randomValues g none
    · exact .randomValuesFromField g o
  have hvals : ∀ c ∈ cellsOf d2 name, givesRef gens0 g c := by
    rcases hput with rfl | ⟨o, rfl⟩
    · exact call_gives hsem hg2 (C43_generate nd1 rect1 hname ha)
    · exact call_gives hsem hg2 (C43_generate_from_field nd1 rect1 hname ha)
  obtain ⟨n2, i2⟩ : la = [] ∧ d2.index = d1.index := by
    obtain ⟨a1, a2, -⟩ := C43_built_in hadd nd1 ha
    exact ⟨a1, a2⟩
  subst n2
  have rect2 : Rect d2 := by
    obtain ⟨added, values, h1, e⟩ := columnAdder_spec (env := env) hadd ha
    obtain ⟨rfl, -⟩ := Prod.mk.inj e
    intro r hr
    have hn : d1.index.Nodup := nd1
    rw [Frame.mergeIndex_same_rows (Frame.ofColumn_ok h1).1 hn] at hr
    obtain ⟨k, hk, rfl⟩ := List.mem_iff_getElem.1 hr
    have hk' := hk
    rw [List.length_zipWith] at hk'
    simp only [List.getElem_zipWith, List.length_append]
    rw [rect1 _ (List.getElem_mem (by omega)), ofColumn_rect h1 _ (List.getElem_mem (by omega))]
    simp [Frame.mergeIndex, Frame.mergedCols]
  -- until they are logged
  obtain ⟨rfl, rfl⟩ := C44_loggers hf
  obtain ⟨logged, rfl, hli, hlr⟩ := C82_field_logged (fun _ h => h) hmid rect2 r4 hc hf
  have htab : tablesOf logId logs = [logged] := by
    rw [tablesOf_dict hwf, hl]
    have q1 := runs_quiet hpre (id := logId) (fun h => h rfl) r1
    have q2 := runs_quiet hmid (id := logId) (fun h => h rfl) r4
    have q3 := runs_quiet hpost (id := logId) (fun h => h rfl) r6
    simp [List.filterMap_append, List.filterMap_cons, q1, q2, q3, Dict.get?, foldVals]
  rw [htab]
  simp only [List.flatMap_cons, List.flatMap_nil, List.append_nil]
  intro c hcell
  refine hvals c ?_
  rw [Frame.cellsOf_eq] at hcell ⊢
  obtain ⟨r', hr', rfl⟩ := List.mem_map.1 hcell
  obtain ⟨r, hr1, -, hr3⟩ := hlr r' hr'
  rw [hr3]
  exact List.mem_map_of_mem hr1

theorem silentOn_exec {j : Nat} {logId : String} {ops : List (Op (World σ (AnyGen σ)))}
    (hops : Spec.SilentOn env F Z logId ops) {w w' : World σ (AnyGen σ)} {logs : Logs}
    (h : execute env ops j w = .ok logs w') : tablesOf logId logs = [] := by
  obtain ⟨s, w1, hs, h1, h2, h3, -⟩ := execute_gen_at (i := 0) h
  obtain ⟨s', hs', h2⟩ := h2
  rcases h2 with ⟨-, rfl, rfl⟩ | ⟨-, data, h2⟩
  · rfl
  · obtain ⟨hwf, ls, hr, hl⟩ := (chain_sequential env.logSet ops _ data _ w1).1 logs h2
    rw [tablesOf_dict hwf, hl, runs_quiet hops (by simp) hr]
    rfl

/-- **C108** in a run: whatever else the stories do, and however many times the generators are used by
them, by the timers and by other operations, each logged value of a field drawn from a generator is a
value which this generator could give at the beginning of the run. -/
theorem C108_logged_values (hsem : env.sem = AnyGen.sem env.R) {g : GenRef} {name logId : String}
    {chains : List (List (Op (World σ (AnyGen σ))))}
    (hc : ∀ ops ∈ chains, Spec.Draws env F Z g name logId ops ∨ Spec.SilentOn env F Z logId ops)
    {w w' : World σ (AnyGen σ)} {evs : List (Int × Event)} (hw : Spec.Distinct name w)
    (h : Played env chains w evs w') :
    ∀ c ∈ Spec.loggedValues logId name evs, givesRef w.gens g c := by
  have hb : ∀ ops ∈ chains, ∀ op ∈ ops, BuiltIn env F Z op := by
    intro ops ho op hop
    rcases hc ops ho with hd | hs
    · exact draws_builtIn hd op hop
    · exact (hs op hop).builtIn
  suffices key : ∀ gens0, Later gens0 w.gens →
      ∀ c ∈ Spec.loggedValues logId name evs, givesRef gens0 g c from key _ (later_refl _)
  intro gens0 hg
  have hI := later_inv hsem gens0
  induction h with
  | nil w => simp [Spec.loggedValues, emitted, tablesOf]
  | @exec w w1 w' l j ops logs hi h rest ih =>
    have e : Spec.loggedValues logId name ((w.clock.current, .exec j logs) :: l) =
        (tablesOf logId logs).flatMap (cellsOf · name) ++ Spec.loggedValues logId name l := by
      simp [Spec.loggedValues, emitted, tablesOf, Event.logs]
    rw [e]
    have hops := hb ops (List.mem_of_getElem? hi)
    have hg1 : Later gens0 w1.gens :=
      execute_gens hI.toGenKept (fun op hop => builtIn_respects hI.toGenKept (hops op hop)) h hg
    have hw1 := hw.same (execute_sameStories hops h)
    intro c hcm
    rcases List.mem_append.1 hcm with hcm | hcm
    · rcases hc ops (List.mem_of_getElem? hi) with hd | hs
      · exact draws_exec hsem hd hg hw h c hcm
      · rw [silentOn_exec hs h] at hcm
        simp at hcm
    · exact ih hw1 hg1 c hcm
  | @tick w w' l rest ih =>
    have e : Spec.loggedValues logId name ((w.clock.current, .tick) :: l) =
        Spec.loggedValues logId name l := by
      simp [Spec.loggedValues, emitted, Event.logs]
    rw [e]
    exact ih hw (hI.tick _ hg)

/-- **C108** for uniform numbers, Pareto numbers and choices, the logged values are within the bounds
given to the generator. -/
theorem C108_bounds {gens : List (AnyGen σ)} {i : Nat} {c : Cell} (h : givesRef gens (.ref i) c) :
    (∀ lo hi s, gens[i]? = some (.uniform lo hi s) → lo < hi → ∃ q, c = .num q ∧ lo ≤ q ∧ q < hi) ∧
    (∀ xmin s, gens[i]? = some (.pareto xmin false s) → 0 ≤ xmin → ∃ q, c = .num q ∧ xmin ≤ q) ∧
    (∀ xmin s, gens[i]? = some (.pareto xmin true s) → 0 ≤ xmin →
      ∃ k : Nat, c = .num (k : Rat) ∧ xmin < (k : Rat) + 1) ∧
    (∀ a p s, gens[i]? = some (.choice a p s) → ∃ x ∈ a, c = .scalar x) := by
  obtain ⟨g, hg, h⟩ := h
  refine ⟨?_, ?_, ?_, ?_⟩
  · intro lo hi s e hlt
    rw [hg] at e; cases e
    obtain ⟨u, h0, h1, rfl⟩ := h
    refine ⟨_, rfl, ?_, ?_⟩ <;> nlinarith
  · intro xmin s e hx
    rw [hg] at e; cases e
    obtain ⟨x, h1, rfl⟩ := h
    exact ⟨_, rfl, by nlinarith⟩
  · intro xmin s e hx
    rw [hg] at e; cases e
    obtain ⟨x, h1, rfl⟩ := h
    have h2 : xmin ≤ x * xmin := by nlinarith
    have h3 : (0 : Rat) ≤ x * xmin := hx.trans h2
    rw [pyInt, if_pos h3]
    obtain ⟨k, hk⟩ := Int.eq_ofNat_of_zero_le (Int.floor_nonneg.2 h3)
    have hk' : (x * xmin).floor = (k : Int) := hk
    refine ⟨k, by rw [hk']; norm_cast, ?_⟩
    have := Int.lt_floor_add_one (x * xmin)
    rw [hk] at this
    push_cast at this
    linarith
  · intro a p s e
    rw [hg] at e; cases e
    obtain ⟨k, x, hx, rfl, -⟩ := h
    exact ⟨x, List.mem_of_getElem? hx, rfl⟩

/-! ### Non-vacuity -/

/-- two stories that share a generator of prices, one through `map` -/
def exDrawing : List (List (Op (World Nat (AnyGen Nat)))) :=
  [[Ops.randomValues exEnv (.ref 0) "OTHER" none,
    Ops.randomValues exEnv (.ref 0) "PRICE" none,
    Ops.applySeries ["CALLER"] "DROP" (fun cs => .ok ((cs.headD []).map fun c => .bool (decide (c = .str "b")))),
    Ops.dropRow "DROP",
    Ops.fieldLogger "sales" ["PRICE", "CALLER"] []],
   [Ops.randomValues exEnv (.mapped (.ref 0) fun _ => .ok (.num 0)) "FREE" none,
    Ops.fieldLogger "gifts" ["FREE"] []]]

def exDrawWorld : World Nat (AnyGen Nat) :=
  { exStampWorld with clock := { exStampWorld.clock with listeners := [.uniform 10 20 3] } }

example : Spec.Distinct "PRICE" exDrawWorld := by
  intro s hs
  simp only [exDrawWorld, exStampWorld, exStampStories, List.mem_cons, List.not_mem_nil, or_false] at hs
  rcases hs with rfl | rfl
  · exact ⟨by decide, by decide⟩
  · exact ⟨by decide, by decide⟩

example : ∀ ops ∈ exDrawing, Spec.Draws exEnv (fun _ => True) (fun _ => True) (.ref 0) "PRICE" "sales" ops ∨
    Spec.SilentOn exEnv (fun _ => True) (fun _ => True) "sales" ops := by
  intro ops ho
  simp only [exDrawing, List.mem_cons, List.not_mem_nil, or_false] at ho
  rcases ho with rfl | rfl
  · left
    refine ⟨[Ops.randomValues exEnv (.ref 0) "OTHER" none],
      [Ops.applySeries ["CALLER"] "DROP" (fun cs => .ok ((cs.headD []).map fun c => .bool (decide (c = .str "b")))),
        Ops.dropRow "DROP"], [], ["PRICE", "CALLER"], _, by simp, .inl rfl, rfl, ?_, by simp⟩
    intro op hop
    simp only [List.cons_append, List.nil_append, List.mem_cons, List.not_mem_nil, or_false] at hop
    rcases hop with rfl | rfl | rfl
    · exact .randomValues _ _ _ ⟨by decide, by decide, by decide⟩ (fun _ _ => trivial)
    · exact .applySeries _ _ _ ⟨by decide, by decide, by decide⟩
    · exact .dropRow _
  · right
    intro op hop
    simp only [List.mem_cons, List.not_mem_nil, or_false] at hop
    rcases hop with rfl | rfl
    · exact .randomValues _ _ _ trivial (fun _ _ => trivial)
    · exact .fieldLogger _ _ _ (by decide)

example : ((do
    let a ← execute exEnv (exDrawing.headD []) 0
    let b ← execute exEnv (exDrawing.getD 1 []) 1
    let c ← execute exEnv (exDrawing.headD []) 0
    pure ([a, b, c].map fun l => (tablesOf "sales" l).flatMap (cellsOf · "PRICE"))).value? exDrawWorld) =
    some [[.num 15], [], [.num 19]] := by
  decide +kernel

end Trumania
