import Verif.Proofs.TypedRel
import Verif.Proofs.TypedPop
import Verif.Proofs.TypedStory
import Verif.Props.Columns

/-! Helper lemmas: the operations that add columns never raise on well-formed story data. -/

namespace Trumania
open Spec World
variable {σ γ : Type} {env : Env σ γ} {S : Sig γ} {M : Val → Prop} {Γ : Ctx}

/-- the operation succeeds, its result has the columns `Γ'`, and the circus stays well-formed -/
def Spec.SafeRun (env : Env σ γ) (S : Sig γ) (M : Val → Prop) (Γ' : Ctx) (op : Op (World σ γ))
    (data : Frame) (w : World σ γ) : Prop :=
  ∃ out logs w', op data w = .ok (out, logs) w' ∧ Typed M Γ' out ∧ Fits env S w'

variable {data : Frame} {w : World σ γ}

theorem column_safe (hd : Typed M Γ data) {name : String} (hn : name ∉ Γ.names)
    {build : Frame → Act (World σ γ) Frame} {values : List Cell} {w' : World σ γ} {P : Cell → Prop}
    (hb : ∀ added, Frame.ofColumn data.index name values = .ok added → build data w = .ok added w')
    (hl : values.length = data.rows.length) (hv : ∀ c ∈ values, P c) (hw' : Fits env S w') :
    SafeRun env S M (Γ ++ [(name, fun _ => P)]) (Ops.addColumns .left build) data w := by
  obtain ⟨added, h1, h2⟩ := hd.column' hn hl hv
  exact ⟨_, [], w', addColumns_eq_ok.2 ⟨added, hb added h1, rfl⟩, h2, hw'⟩

theorem randomValues_safe (hd : Typed M Γ data) (hw : Fits env S w) {g : GenRef} {name : String}
    {P : Cell → Prop} (hg : GenOk env S g .size P) (hn : name ∉ Γ.names) :
    SafeRun env S M (Γ ++ [(name, fun _ => P)]) (Ops.randomValues env g name none) data w := by
  obtain ⟨cells, w', h1, h2, h3, h4⟩ := call_safe hg (q := .size (data.rows.length : Rat))
    (n := data.rows.length) (w := w) rfl hw
  refine column_safe hd hn (fun added ha => ?_) h3 h4 h2
  rw [Act.bind_ok (show Ops.randomCells env g none data w = .ok cells w' from h1), Act.ofPy_ok ha]

theorem sliceBulk_length {α : Type} (vals : List α) (qs : List Nat) :
    (sliceBulk vals qs).length = qs.length := by
  induction qs generalizing vals with
  | nil => rfl
  | cons q qs ih => simp [sliceBulk, ih]

theorem sliceBulk_mem {α : Type} {vals : List α} {qs : List Nat} :
    ∀ l ∈ sliceBulk vals qs, ∀ x ∈ l, x ∈ vals := by
  induction qs generalizing vals with
  | nil => simp [sliceBulk]
  | cons q qs ih =>
    intro l hl x hx
    rw [sliceBulk] at hl
    rcases List.mem_cons.1 hl with rfl | hl
    · exact List.mem_of_mem_take hx
    · exact List.mem_of_mem_drop (ih l hl x hx)

theorem asNats {cells : List Cell} (h : ∀ c ∈ cells, IsWhole c) :
    ∃ ns : List Nat, cells.mapM Cell.asNat = .ok ns ∧ ns.length = cells.length := by
  obtain ⟨ns, hns⟩ := mapM_isOk (f := Cell.asNat) (l := cells) fun c hc => by
    obtain ⟨n, rfl⟩ := h c hc
    refine ⟨n, ?_⟩
    rw [Cell.asNat, if_pos ⟨Rat.den_natCast _, by exact_mod_cast Nat.zero_le n⟩]
    simp
  exact ⟨ns, hns, (mapM_ok_iff.1 hns).length_eq.symm⟩

theorem randomBulks_safe (hd : Typed M Γ data) (hw : Fits env S w) {g : GenRef} {name q : String}
    {P : Val → Prop} (hg : GenOk env S g .size (IdIn P)) (hq : Γ.Has M q fun _ => IsWhole)
    (hn : name ∉ Γ.names) :
    SafeRun env S M (Γ ++ [(name, fun _ => ListOf P)]) (Ops.randomValues env g name (some q)) data w := by
  obtain ⟨cs, h1, h2, h3⟩ := hd.col' hq
  obtain ⟨ns, h4, h5⟩ := asNats h3
  obtain ⟨flat, w', h6, h7, h8, h9⟩ := call_safe hg (q := .size (ns.sum : Rat))
    (n := ns.sum) (w := w) rfl hw
  obtain ⟨vs, h10, rfl⟩ := Typed.asVals fun c hc => (h9 c hc).imp fun _ h => h.1
  refine column_safe hd hn (values := (sliceBulk vs ns).map Cell.list) (fun added ha => ?_) ?_ ?_ h7
  · have hr : Ops.randomCells env g (some q) data w = .ok ((sliceBulk vs ns).map Cell.list) w' := by
      rw [Ops.randomCells, Act.bind_ok (Act.ofPy_ok (bind_eq_ok.2 ⟨cs, h1, h4⟩) w),
        Act.bind_ok (show World.generate env g _ w = _ from h6), Act.bind_ok (Act.ofPy_ok h10 w')]
      rfl
    rw [Act.bind_ok hr, Act.ofPy_ok ha]
  · rw [List.length_map, sliceBulk_length, h5, h2]
  · intro c hc
    obtain ⟨l, hl, rfl⟩ := List.mem_map.1 hc
    refine ⟨l, rfl, fun v hv => ?_⟩
    obtain ⟨u, hu, hP⟩ := h9 (.scalar v) (List.mem_map.2 ⟨v, sliceBulk_mem l hl v hv, rfl⟩)
    cases hu
    exact hP

theorem randomFrom_safe (hd : Typed M Γ data) (hw : Fits env S w) {g : GenRef} {name observed : String}
    {A P : Cell → Prop} (hg : GenOk env S g (.series A) P) (ho : Γ.Has M observed fun _ => A)
    (hn : name ∉ Γ.names) :
    SafeRun env S M (Γ ++ [(name, fun _ => P)]) (Ops.randomValuesFromField env g name observed) data w := by
  obtain ⟨cs, h1, h2, h3⟩ := hd.col' ho
  obtain ⟨cells, w', h4, h5, h6, h7⟩ := call_safe hg (q := .series cs) (n := data.rows.length) (w := w)
    ⟨h2, h3⟩ hw
  refine column_safe hd hn (fun added ha => ?_) h6 h7 h5
  rw [Act.bind_ok (Act.ofPy_ok h1 w), Act.bind_ok (show World.observe env g cs w = _ from h4),
    Act.ofPy_ok ha]

theorem timestamp_safe (hd : Typed M Γ data) (hw : Fits env S w) {name : String} {random : Bool}
    {fmt : Int → Cell} {P : Cell → Prop} (hf : ∀ d, P (fmt d)) (hr : random = true → nsPerSec ≤ S.step)
    (hn : name ∉ Γ.names) :
    SafeRun env S M (Γ ++ [(name, fun _ => P)]) (Ops.timestamp env name random fmt) data w := by
  have : ∃ dates c, w.clock.getTimestamp env.R data.rows.length random = .ok (dates, c) ∧
      dates.length = data.rows.length ∧ c.step = w.clock.step ∧ c.listeners = w.clock.listeners := by
    cases random with
    | false => exact ⟨_, w.clock, rfl, by simp, rfl, rfl⟩
    | true =>
      have hs := hr rfl
      rw [← hw.step] at hs
      have h0 : 0 ≤ w.clock.step := le_trans (by norm_num [nsPerSec]) hs
      have hpos : ¬ ((pyInt (totalSeconds w.clock.step)).toNat = 0 ∧ data.rows.length ≠ 0) := by
        rintro ⟨h1, -⟩
        rw [pyInt_totalSeconds _ h0] at h1
        simp only [nsPerSec] at hs h1
        omega
      have e : w.clock.getTimestamp env.R data.rows.length true = .ok
          ((env.R.randint w.clock.state (pyInt (totalSeconds w.clock.step)).toNat
            data.rows.length).1.map fun (s : Nat) => w.clock.current + (s : Int) * nsPerSec,
          { w.clock with state := (env.R.randint w.clock.state
            (pyInt (totalSeconds w.clock.step)).toNat data.rows.length).2 }) := by
        simp only [Clock.getTimestamp, if_true, Rng.choice.eq_def, if_neg hpos]
        rfl
      exact ⟨_, _, e, by rw [List.length_map, env.R.randint_length], rfl, rfl⟩
  obtain ⟨dates, c, h1, h2, h3, h4⟩ := this
  refine column_safe hd hn (values := dates.map fmt) (fun added ha => ?_) (by simpa using h2) ?_
    (hw.setClock h3 h4)
  · rw [Act.bind_ok (show (get : Act (World σ γ) (World σ γ)) w = .ok w w from rfl),
      Act.bind_ok (Act.ofPy_ok h1 w)]
    simp only
    exact Act.ofPy_ok ha _
  · intro x hx
    obtain ⟨d, -, rfl⟩ := List.mem_map.1 hx
    exact hf d

theorem neighbourhoodSize_safe (hd : Typed M Γ data) (hw : Fits env S w) {rel : Nat} {f name : String}
    {K : RelKind} (hrel : S.rels[rel]? = some K) (hf : Γ.Has M f fun _ => IsId)
    (hn : name ∉ Γ.names) :
    SafeRun env S M (Γ ++ [(name, fun _ => IsWhole)]) (Ops.neighbourhoodSize rel f name) data w := by
  obtain ⟨froms, h1, h2⟩ := hd.ids' hf
  obtain ⟨r, h3, -⟩ := hw.rel hrel
  refine column_safe hd hn (values := froms.map fun f =>
    Cell.num ((((r.get_neighbourhood_size froms).get? f).getD 0 : Nat) : Rat)) (fun added ha => ?_)
    (by simpa using h2) ?_ hw
  · rw [Act.bind_ok (Act.ofPy_ok h1 w), Act.bind_ok (getRel_eq_ok.2 ⟨h3, rfl⟩), Act.ofPy_ok ha]
  · intro x hx
    obtain ⟨d, -, rfl⟩ := List.mem_map.1 hx
    exact ⟨_, rfl⟩

theorem cols_safe (hd : Typed M Γ data) {sources : List String} {As : List (Cell → Prop)}
    (hs : List.Forall₂ (fun s A => Γ.Has M s fun _ => A) sources As) :
    ∃ cols, sources.mapM data.col = .ok cols ∧
      List.Forall₂ (fun A col => col.length = data.rows.length ∧ ∀ c ∈ col, A c) As cols := by
  induction hs with
  | nil => exact ⟨[], rfl, .nil⟩
  | cons h1 _ ih =>
    obtain ⟨cs, h2, h3, h4⟩ := hd.col' h1
    obtain ⟨cols, h5, h6⟩ := ih
    exact ⟨cs :: cols, by rw [List.mapM_cons, h2, h5]; rfl, .cons ⟨h3, h4⟩ h6⟩

theorem applySeries_safe (hd : Typed M Γ data) (hw : Fits env S w) {sources : List String}
    {name : String} {f : List (List Cell) → Py (List Cell)} {As : List (Cell → Prop)} {P : Cell → Prop}
    (hs : List.Forall₂ (fun s A => Γ.Has M s fun _ => A) sources As)
    (hf : ∀ n cols, List.Forall₂ (fun A col => col.length = n ∧ ∀ c ∈ col, A c) As cols →
      ∃ vs, f cols = .ok vs ∧ vs.length = n ∧ ∀ v ∈ vs, P v) (hn : name ∉ Γ.names) :
    SafeRun env S M (Γ ++ [(name, fun _ => P)]) (Ops.applySeries sources name f) data w := by
  obtain ⟨cols, h1, h2⟩ := cols_safe hd hs
  obtain ⟨vs, h3, h4, h5⟩ := hf _ cols h2
  refine column_safe hd hn (values := vs) (fun added ha => ?_) h4 h5 hw
  exact Act.ofPy_ok (bind_eq_ok.2 ⟨cols, h1, bind_eq_ok.2 ⟨vs, h3, ha⟩⟩) w

/-- the selected columns of typed data -/
theorem select_safe (hd : Typed M Γ data) {sources : List String} {As : List (Val → Cell → Prop)}
    (hs : List.Forall₂ (Γ.Has M) sources As) (hn : sources.Nodup) :
    ∃ d, data.select sources = .ok d ∧ d.index = data.index ∧ Typed M (sources.zip As) d := by
  have hl := hs.length_eq
  have hnames : Ctx.names (sources.zip As) = sources := List.map_fst_zip hl.le
  have hin : ∀ c ∈ sources, c ∈ data.cols := by
    intro c hc
    obtain ⟨A, -, k, hk, -⟩ := forall₂_exists_right hs hc
    rw [hd.cols]
    exact List.mem_map.2 ⟨_, hk, rfl⟩
  obtain ⟨d, h1⟩ := Frame.select_total hd.rect hd.nodupCols hin
  obtain ⟨h2, h3⟩ := Frame.select_ok h1
  have hidx : d.index = data.index := by rw [Frame.index, h3, List.map_map]; rfl
  refine ⟨d, h1, hidx, by rw [h2, hnames], by rw [hnames]; exact hn, by rw [hidx]; exact hd.index,
    by rw [hidx]; exact hd.labels, ?_⟩
  intro r hr
  rw [h3] at hr
  obtain ⟨r0, hr0, rfl⟩ := List.mem_map.1 hr
  simp only
  clear hnames hin h1 h2 h3 hidx hn hl hr
  induction hs with
  | nil => exact .nil
  | cons h1 _ ih =>
    obtain ⟨k, hk, hkA⟩ := h1
    refine .cons ?_ ih
    obtain ⟨x, hx, hkx⟩ := Typed.cell_has (hd.cells r0 hr0) hd.distinct hk
    rw [Spec.cell, hd.cols, Ctx.names, hx]
    exact hkA _ _ (hd.label hr0) hkx

theorem applyFrame_safe (hd : Typed M Γ data) (hw : Fits env S w) {Δ : Ctx}
    {sources namedAs : List String} {f : Frame → Py Frame} {As : List (Val → Cell → Prop)}
    (hs : List.Forall₂ (Γ.Has M) sources As) (hsn : sources.Nodup)
    (hf : ∀ d, Typed M (sources.zip As) d → ∃ r, f d = .ok r ∧ r.index = d.index ∧ Typed M Δ r)
    (hl : namedAs.length = Δ.length) (hn : (Γ.names ++ namedAs).Nodup) :
    SafeRun env S M (Γ ++ namedAs.zip (Δ.map Prod.snd)) (Ops.applyFrame sources namedAs f) data w := by
  obtain ⟨d, h1, h2, h3⟩ := select_safe hd hs hsn
  obtain ⟨r, h4, h5, h6⟩ := hf d h3
  have hren : Ops.renamed r namedAs = { r with cols := namedAs } :=
    renamed_all h6.nodupCols (by rw [h6.cols, Ctx.names, List.length_map, hl])
  have hnames : Ctx.names (namedAs.zip (Δ.map Prod.snd)) = namedAs :=
    List.map_fst_zip (by rw [List.length_map, hl])
  have ht : Typed M (namedAs.zip (Δ.map Prod.snd)) { r with cols := namedAs } := by
    refine ⟨hnames.symm, by rw [hnames]; exact (List.nodup_append.1 hn).2.1, h6.index, h6.labels, ?_⟩
    intro x hx
    have := h6.cells x hx
    generalize x.cells = cells, x.idx = i at this
    clear * - this hl
    induction this generalizing namedAs with
    | nil => simp
    | cons h _ ih =>
      cases namedAs with
      | nil => simp at hl
      | cons n ns =>
        rw [List.map_cons, List.zip_cons_cons]
        exact .cons h (ih (by simpa using hl))
  refine ⟨_, [], w, addColumns_eq_ok.2 ⟨{ r with cols := namedAs }, ?_, rfl⟩, hd.merge ht ?_ ?_, hw⟩
  · refine Act.ofPy_ok (bind_eq_ok.2 ⟨d, h1, bind_eq_ok.2 ⟨r, h4, ?_⟩⟩) w
    rw [hren]
  · rw [hnames]; exact hn
  · intro _ i hi
    show i ∈ r.index
    rw [h5, h2]; exact hi

end Trumania
