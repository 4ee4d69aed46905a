import Verif.Spec.Typed
import Verif.Proofs.Execute
import Verif.Proofs.Ops
import Verif.Proofs.Columns
import Verif.Proofs.Fields
import Verif.Props.Lookup

/-! Helper lemmas on well-formed story data and worlds. -/

namespace Trumania
open Spec World
variable {σ γ : Type} {env : Env σ γ} {S : Sig γ} {M : Val → Prop} {Γ : Ctx}

theorem forall₂_at {α β : Type} {R : α → β → Prop} {l : List α} {m : List β}
    (h : List.Forall₂ R l m) {i : Nat} {a : α} (ha : l[i]? = some a) : ∃ b, m[i]? = some b ∧ R a b := by
  induction h generalizing i with
  | nil => simp at ha
  | cons hr _ ih =>
    cases i with
    | zero => simp at ha; subst ha; exact ⟨_, rfl, hr⟩
    | succ i => simp at ha; exact ih ha

theorem forall₂_setAt {α β : Type} {R : α → β → Prop} {l : List α} {m : List β}
    (h : List.Forall₂ R l m) {i : Nat} {a : α} {b : β} (ha : l[i]? = some a) (hr : R a b) :
    List.Forall₂ R l (m.set i b) := by
  induction h generalizing i with
  | nil => simp at ha
  | cons h1 h2 ih =>
    cases i with
    | zero => simp at ha; subst ha; exact .cons hr h2
    | succ i => simp at ha; exact .cons h1 (ih ha)

/-! ### Story data -/

namespace Spec.Typed
variable {d : Frame}

theorem rect (h : Typed M Γ d) : Rect d := by
  intro r hr
  rw [h.cols, Ctx.names, List.length_map, (h.cells r hr).length_eq]

theorem nodupCols (h : Typed M Γ d) : d.cols.Nodup := by rw [h.cols]; exact h.distinct

theorem label (h : Typed M Γ d) {r : Row} (hr : r ∈ d.rows) : M r.idx :=
  h.labels _ (List.mem_map.2 ⟨r, hr, rfl⟩)

theorem cell_has {Γ : Ctx} {i : Val} {cells : List Cell}
    (h : List.Forall₂ (fun x c => x.2 i c) Γ cells) (hn : Γ.names.Nodup)
    {name : String} {k : Val → Cell → Prop} (hk : (name, k) ∈ Γ) :
    ∃ x, ((Γ.map Prod.fst).zip cells).find? (fun x => decide (x.1 = name)) = some x ∧ k i x.2 := by
  induction h with
  | nil => cases hk
  | @cons x c Γ cells hx _ ih =>
    rw [Ctx.names, List.map_cons, List.nodup_cons] at hn
    rw [List.map_cons, List.zip_cons_cons]
    rcases List.mem_cons.1 hk with rfl | hk'
    · exact ⟨_, List.find?_cons_of_pos (by simp), hx⟩
    · rw [List.find?_cons_of_neg]
      · exact ih hn.2 hk'
      · simp only [decide_eq_true_eq]
        rintro rfl
        exact hn.1 (List.mem_map.2 ⟨_, hk', rfl⟩)

/-- a declared column can be read, and its cells are of the declared kind -/
theorem col (h : Typed M Γ d) {name : String} {A : Val → Cell → Prop} (hh : Γ.Has M name A) :
    ∃ cells, d.col name = .ok cells ∧ List.Forall₂ (fun r c => A r.idx c) d.rows cells := by
  obtain ⟨k, hk, hkA⟩ := hh
  refine ⟨_, Frame.col_total h.rect h.nodupCols ?_, ?_⟩
  · rw [h.cols]; exact List.mem_map.2 ⟨_, hk, rfl⟩
  · rw [List.forall₂_map_right_iff, List.forall₂_same]
    intro r hr
    obtain ⟨x, hx, hkx⟩ := cell_has (h.cells r hr) h.distinct hk
    rw [Spec.cell, h.cols, Ctx.names, hx]
    exact hkA _ _ (h.label hr) hkx

theorem forall_right {α β : Type} {P : α → β → Prop} {Q : β → Prop} {l : List α} {m : List β}
    (h : List.Forall₂ P l m) (hPQ : ∀ a b, P a b → Q b) : ∀ b ∈ m, Q b := by
  intro b hb
  obtain ⟨a, -, hab⟩ := forall₂_exists_left h hb
  exact hPQ a b hab

theorem col' (h : Typed M Γ d) {name : String} {A : Cell → Prop} (hh : Γ.Has M name fun _ => A) :
    ∃ cells, d.col name = .ok cells ∧ cells.length = d.rows.length ∧ ∀ c ∈ cells, A c := by
  obtain ⟨cells, h1, h2⟩ := h.col hh
  exact ⟨cells, h1, h2.length_eq.symm, forall_right h2 fun _ _ h => h⟩

theorem asVals {cells : List Cell} (h : ∀ c ∈ cells, IsId c) :
    ∃ vs : List Val, cells.mapM Cell.asVal = .ok vs ∧ cells = vs.map Cell.scalar := by
  induction cells with
  | nil => exact ⟨[], rfl, rfl⟩
  | cons c cells ih =>
    obtain ⟨v, rfl⟩ := h c (by simp)
    obtain ⟨vs, h1, rfl⟩ := ih fun c hc => h c (by simp [hc])
    exact ⟨v :: vs, by rw [List.mapM_cons, h1]; rfl, rfl⟩

/-- a declared column of ids -/
theorem ids (h : Typed M Γ d) {name : String} {P : Val → Prop} (hh : Γ.Has M name fun _ => IdIn P) :
    ∃ vs, Ops.idColumn d name = .ok vs ∧ vs.length = d.rows.length ∧ ∀ v ∈ vs, P v := by
  obtain ⟨cells, h1, h2, h3⟩ := h.col' hh
  obtain ⟨vs, h4, rfl⟩ := asVals fun c hc => (h3 c hc).imp fun _ h => h.1
  refine ⟨vs, bind_eq_ok.2 ⟨_, h1, h4⟩, by simpa using h2, ?_⟩
  intro v hv
  obtain ⟨u, hu, hP⟩ := h3 (.scalar v) (List.mem_map.2 ⟨v, hv, rfl⟩)
  cases hu
  exact hP

theorem has_isId {name : String} (h : Γ.Has M name fun _ => IsId) :
    Γ.Has M name fun _ => IdIn fun _ => True := by
  obtain ⟨k, hk, h⟩ := h
  exact ⟨k, hk, fun i c hi hc => (h i c hi hc).imp fun _ e => ⟨e, trivial⟩⟩

theorem ids' (h : Typed M Γ d) {name : String} (hh : Γ.Has M name fun _ => IsId) :
    ∃ vs, Ops.idColumn d name = .ok vs ∧ vs.length = d.rows.length := by
  obtain ⟨vs, h1, h2, -⟩ := h.ids (has_isId hh)
  exact ⟨vs, h1, h2⟩

/-- the join of typed data with columns that have other names -/
theorem merge {M' : Val → Prop} {Δ : Ctx} {added : Frame} {how : JoinKind} (h : Typed M Γ d)
    (ha : Typed M' Δ added) (hn : (Γ.names ++ Δ.names).Nodup)
    (hc : how = .left → ∀ i ∈ d.index, i ∈ added.index) :
    Typed M (Γ ++ Δ) (d.mergeIndex how added) := by
  have hsub := Frame.mergeIndex_index_sublist (how := how) (l := d) ha.index
  have hnames : (Γ ++ Δ).names = Γ.names ++ Δ.names := List.map_append
  refine ⟨?_, by rw [hnames]; exact hn, h.index.sublist hsub, fun i hi => h.labels i (hsub.subset hi), ?_⟩
  · rw [hnames]
    change Frame.mergedCols d.cols added.cols = _
    rw [Frame.mergedCols_disjoint, h.cols, ha.cols]
    intro c hc hc'
    rw [h.cols] at hc
    rw [ha.cols] at hc'
    exact (List.nodup_append.1 hn).2.2 c hc c hc' rfl
  · intro r hr
    simp only [Frame.mergeIndex, List.mem_flatMap] at hr
    obtain ⟨a, hma, hr⟩ := hr
    rcases Frame.filter_idx_nodup ha.index a.idx with ⟨h0, h1⟩ | ⟨b, hb, hi, h1⟩
    · rw [h1] at hr
      cases how with
      | left => exact absurd (hc rfl a.idx (List.mem_map.2 ⟨a, hma, rfl⟩)) h0
      | inner => simp at hr
    · rw [h1] at hr
      simp only [List.map_cons, List.map_nil, List.mem_singleton] at hr
      subst hr
      have hb' := ha.cells b hb
      rw [hi] at hb'
      exact List.rel_append (h.cells a hma) hb'

/-- one more column -/
theorem column (h : Typed M Γ d) {name : String} {K : Val → Cell → Prop} {values : List Cell}
    (hn : name ∉ Γ.names) (hv : List.Forall₂ (fun r c => K r.idx c) d.rows values) :
    ∃ added, Frame.ofColumn d.index name values = .ok added ∧
      Typed M (Γ ++ [(name, K)]) (d.mergeIndex .left added) := by
  have hl : values.length = d.index.length := by rw [Frame.index_length, hv.length_eq]
  have he : Frame.ofColumn d.index name values =
      .ok ⟨[name], List.zipWith (fun i v => ⟨i, [v]⟩) d.index values⟩ := by
    rw [Frame.ofColumn, if_pos hl]
  refine ⟨_, he, h.merge (M' := fun _ => True) ⟨rfl, by simp [Ctx.names], ?_, fun _ _ => trivial, ?_⟩
    ?_ ?_⟩
  · rw [(Frame.ofColumn_ok he).1]; exact h.index
  · intro r hr
    simp only at hr
    clear he hl
    rw [Frame.index, List.zipWith_map_left] at hr
    generalize d.rows = rows at hv hr
    induction hv with
    | nil => simp at hr
    | cons h1 _ ih =>
      rw [List.zipWith_cons_cons] at hr
      rcases List.mem_cons.1 hr with rfl | hr
      · exact .cons h1 .nil
      · exact ih hr
  · rw [List.nodup_append]
    refine ⟨h.distinct, by simp [Ctx.names], ?_⟩
    rintro a ha b hb rfl
    simp only [Ctx.names, List.map_cons, List.map_nil, List.mem_singleton] at hb
    subst hb
    exact hn ha
  · intro _ i hi
    rw [(Frame.ofColumn_ok he).1]; exact hi

theorem column' (h : Typed M Γ d) {name : String} {P : Cell → Prop} {values : List Cell}
    (hn : name ∉ Γ.names) (hl : values.length = d.rows.length) (hv : ∀ c ∈ values, P c) :
    ∃ added, Frame.ofColumn d.index name values = .ok added ∧
      Typed M (Γ ++ [(name, fun _ => P)]) (d.mergeIndex .left added) := by
  apply h.column hn
  rw [List.forall₂_iff_get]
  exact ⟨hl.symm, fun i h1 h2 => hv _ (List.get_mem _ _)⟩

/-- fewer rows -/
theorem sub (h : Typed M Γ d) {rows : List Row} (hs : rows.Sublist d.rows) :
    Typed M Γ ⟨d.cols, rows⟩ :=
  ⟨h.cols, h.distinct, h.index.sublist (hs.map _), fun i hi => h.labels i ((hs.map _).subset hi),
    fun r hr => h.cells r (hs.subset hr)⟩

end Spec.Typed

/-! ### Worlds -/

namespace Spec.Fits
variable {w : World σ γ}

theorem rel (h : Fits env S w) {i : Nat} {K : RelKind} (hi : S.rels[i]? = some K) :
    ∃ r, w.rels[i]? = some r ∧ RelFits env K r := forall₂_at h.rels hi

theorem pop (h : Fits env S w) {i : Nat} {P : Dict String AttKind} (hi : S.pops[i]? = some P) :
    ∃ p, w.pops[i]? = some p ∧ PopFits P p := forall₂_at h.pops hi

theorem story (h : Fits env S w) {i : Nat} {K : StoryKind} (hi : S.stories[i]? = some K) :
    ∃ s, w.stories[i]? = some s ∧ StoryFits env S K s := forall₂_at h.stories hi

theorem gen (h : Fits env S w) {i : Nat} {I : γ → Prop} (hi : S.gens[i]? = some I) :
    ∃ g, w.gens[i]? = some g ∧ I g := forall₂_at h.gens hi

theorem setRel (h : Fits env S w) {i : Nat} {K : RelKind} {r : Relationship σ}
    (hi : S.rels[i]? = some K) (hr : RelFits env K r) :
    Fits env S { w with rels := w.rels.set i r } :=
  { h with rels := forall₂_setAt h.rels hi hr }

theorem setPop (h : Fits env S w) {i : Nat} {P : Dict String AttKind} {p : Population}
    (hi : S.pops[i]? = some P) (hp : PopFits P p) :
    Fits env S { w with pops := w.pops.set i p } :=
  { h with pops := forall₂_setAt h.pops hi hp }

theorem setStory (h : Fits env S w) {i : Nat} {K : StoryKind} {s : Story σ}
    (hi : S.stories[i]? = some K) (hs : StoryFits env S K s) :
    Fits env S { w with stories := w.stories.set i s } :=
  { h with stories := forall₂_setAt h.stories hi hs }

theorem setGen (h : Fits env S w) {i : Nat} {I : γ → Prop} {g : γ}
    (hi : S.gens[i]? = some I) (hg : I g) :
    Fits env S { w with clock := { w.clock with listeners := w.clock.listeners.set i g } } :=
  { h with step := h.step, gens := forall₂_setAt h.gens hi hg }

/-- the clock of a world may be replaced by one with the same step and generators -/
theorem setClock (h : Fits env S w) {c : Clock σ γ} (hs : c.step = w.clock.step)
    (hl : c.listeners = w.clock.listeners) : Fits env S { w with clock := c } :=
  { h with step := hs.trans h.step, gens := by rw [hl]; exact h.gens }

theorem tick (h : Fits env S w) : Fits env S (World.tickClock env w) :=
  { h with
    step := h.step
    gens := by
      change List.Forall₂ _ _ (w.clock.listeners.map env.sem.tick)
      rw [List.forall₂_map_right_iff]
      have ht := h.ticks
      have hg := h.gens
      generalize S.gens = l at ht hg
      generalize w.clock.listeners = m at hg
      induction hg with
      | nil => exact .nil
      | cons h1 _ ih =>
        exact .cons (ht _ (by simp) _ h1) (ih fun I hI => ht I (by simp [hI])) }

end Spec.Fits

/-! ### Generators -/

/-- the number of values asked, and whether the observations are as expected -/
def Spec.Ask.Matches : Ask → Request → Nat → Prop
  | .size, .size q, n => q = (n : Rat)
  | .series A, .series obs, n => obs.length = n ∧ ∀ c ∈ obs, A c
  | .samples A, .samples _ obs, n => obs.length = n ∧ ∀ c ∈ obs, A c
  | _, _, _ => False

theorem bulkLoop_safe {f : Rat → Act (World σ γ) (List Cell)} {P : Val → Prop}
    (hf : ∀ (n : Nat) w, Fits env S w → ∃ cells w', f (n : Rat) w = .ok cells w' ∧ Fits env S w' ∧
      ∀ c ∈ cells, IdIn P c) {obs : List Cell} (ho : ∀ c ∈ obs, IsWhole c) :
    ∀ {w : World σ γ}, Fits env S w → ∃ cells w', bulkLoop f obs w = .ok cells w' ∧ Fits env S w' ∧
      cells.length = obs.length ∧ ∀ c ∈ cells, ListOf P c := by
  induction obs with
  | nil => intro w hw; exact ⟨[], w, rfl, hw, rfl, by simp⟩
  | cons c obs ih =>
    intro w hw
    obtain ⟨n, rfl⟩ := ho c (by simp)
    obtain ⟨v, w1, h1, h2, h3⟩ := hf n w hw
    obtain ⟨vs, h4, rfl⟩ := Typed.asVals fun c hc => (h3 c hc).imp fun _ h => h.1
    obtain ⟨rest, w2, h5, h6, h7, h8⟩ := ih (fun c hc => ho c (by simp [hc])) h2
    refine ⟨.list vs :: rest, w2, ?_, h6, by simp [h7], ?_⟩
    · rw [bulkLoop, Act.bind_ok (Act.ofPy_ok (show Cell.asNum (.scalar (.num (n : Rat))) = .ok (n : Rat) from rfl) w),
        Act.bind_ok h1, Act.bind_ok (Act.ofPy_ok h4 w1),
        Act.bind_ok h5]
      rfl
    · intro d hd
      rcases List.mem_cons.1 hd with rfl | hd
      · refine ⟨vs, rfl, fun v hv => ?_⟩
        obtain ⟨u, hu, hP⟩ := h3 (.scalar v) (List.mem_map.2 ⟨v, hv, rfl⟩)
        cases hu; exact hP
      · exact h8 d hd

theorem isArray_safe {g : GenRef} {a : Ask} {P : Cell → Prop} (hg : GenOk env S g a P) {w : World σ γ}
    (hw : Fits env S w) : ∃ b, World.isArray env g w = .ok b w := by
  cases g with
  | ref i =>
    have : ∃ I, S.gens[i]? = some I := by
      generalize he : GenRef.ref i = r at hg
      induction hg with
      | refSize hi => cases he; exact ⟨_, hi⟩
      | refSeries hi => cases he; exact ⟨_, hi⟩
      | refSamples hi => cases he; exact ⟨_, hi⟩
      | weaken _ _ ih => exact ih he
      | _ => cases he
    obtain ⟨I, hI⟩ := this
    obtain ⟨a, ha, -⟩ := hw.gen hI
    exact ⟨_, by rw [World.isArray, Act.bind_ok (getGen_eq_ok.2 ⟨ha, rfl⟩)]; rfl⟩
  | _ => exact ⟨false, rfl⟩

/-- a generator that is called as declared answers as declared -/
theorem call_safe {g : GenRef} {a : Ask} {P : Cell → Prop} (hg : GenOk env S g a P) :
    ∀ {q : Request} {n : Nat} {w : World σ γ}, a.Matches q n → Fits env S w →
      ∃ cells w', World.call env g q w = .ok cells w' ∧ Fits env S w' ∧ cells.length = n ∧
        ∀ c ∈ cells, P c := by
  induction hg with
  | @constSize v P h =>
    intro q n w hq hw
    cases q <;> simp only [Ask.Matches] at hq
    subst hq
    refine ⟨_, w, rfl, hw, ?_, ?_⟩
    · rw [List.length_replicate, pyInt, if_pos (by exact_mod_cast Nat.zero_le n)]
      rw [show ((n : Rat)).floor = (n : Int) from by exact_mod_cast Rat.floor_intCast (n : Int)]
      simp
    · intro c hc
      rw [List.eq_of_mem_replicate hc]
      exact h
  | @constSeries v A P h =>
    intro q n w hq hw
    cases q <;> simp only [Ask.Matches] at hq
    refine ⟨_, w, rfl, hw, by simp [hq.1], ?_⟩
    intro c hc
    obtain ⟨_, -, rfl⟩ := List.mem_map.1 hc
    exact h
  | @refSize i I P hi h =>
    intro q n w hq hw
    cases q <;> simp only [Ask.Matches] at hq
    subst hq
    obtain ⟨g, h1, h2⟩ := hw.gen hi
    obtain ⟨cells, g', h3, h4, h5, h6⟩ := h g n h2
    refine ⟨cells, _, ?_, hw.setGen hi h4, h5, h6⟩
    rw [World.call, Act.bind_ok (getGen_eq_ok.2 ⟨h1, rfl⟩), Act.bind_ok (Act.ofPy_ok h3 w)]
    rfl
  | @refSeries i I A P hi h =>
    intro q n w hq hw
    cases q <;> simp only [Ask.Matches] at hq
    obtain ⟨g, h1, h2⟩ := hw.gen hi
    obtain ⟨cells, g', h3, h4, h5, h6⟩ := h g _ h2 hq.2
    refine ⟨cells, _, ?_, hw.setGen hi h4, h5.trans hq.1, h6⟩
    rw [World.call, Act.bind_ok (getGen_eq_ok.2 ⟨h1, rfl⟩), Act.bind_ok (Act.ofPy_ok h3 w)]
    rfl
  | @refSamples i I A P hi ha h =>
    intro q n w hq hw
    cases q <;> simp only [Ask.Matches] at hq
    obtain ⟨g, h1, h2⟩ := hw.gen hi
    obtain ⟨cells, g', h3, h4, h5, h6⟩ := h g _ h2 hq.2
    refine ⟨cells, _, ?_, hw.setGen hi h4, h5.trans hq.1, h6⟩
    rw [World.call, Act.bind_ok (getGen_eq_ok.2 ⟨h1, rfl⟩),
      Act.bind_ok (Act.ofPy_ok (ha g _ h2) w), Act.bind_ok (Act.ofPy_ok h3 w)]
    rfl
  | @mapped g f A P hg hf ih =>
    intro q n w hq hw
    cases q <;> simp only [Ask.Matches] at hq
    obtain ⟨cells, w1, h1, h2, h3, h4⟩ := ih (q := .size _) (n := n) hq hw
    obtain ⟨r, hr⟩ := mapM_isOk (f := f) (l := cells) fun c hc => (hf c (h4 c hc)).imp fun _ h => h.1
    have hr2 := mapM_ok_iff.1 hr
    refine ⟨r, w1, ?_, h2, by rw [← h3, hr2.length_eq], ?_⟩
    · rw [World.call, Act.bind_ok h1, Act.ofPy_ok hr w1]
    · intro d hd
      obtain ⟨c, hc, hcd⟩ := forall₂_exists_left hr2 hd
      obtain ⟨d', h5, h6⟩ := hf c (h4 c hc)
      rw [hcd] at h5
      cases h5
      exact h6
  | @mappedVect g f A P hg hf ih =>
    intro q n w hq hw
    cases q <;> simp only [Ask.Matches] at hq
    obtain ⟨cells, w1, h1, h2, h3, h4⟩ := ih (q := .size _) (n := n) hq hw
    obtain ⟨r, hr, hl, hP⟩ := hf cells h4
    exact ⟨r, w1, by rw [World.call, Act.bind_ok h1, Act.ofPy_ok hr w1], h2, hl.trans h3, hP⟩
  | @flatmapped g dep A P hg hd ih1 ih2 =>
    intro q n w hq hw
    cases q <;> simp only [Ask.Matches] at hq
    obtain ⟨cells, w1, h1, h2, h3, h4⟩ := ih1 (q := .size _) (n := n) hq hw
    obtain ⟨b, hb⟩ := isArray_safe hg h2
    obtain ⟨out, w2, h5, h6, h7, h8⟩ := ih2 (q := .samples b cells) (n := n) ⟨h3, h4⟩ h2
    exact ⟨out, w2, by rw [World.call, Act.bind_ok h1, Act.bind_ok hb, h5], h6, h7, h8⟩
  | @bulkSeries g A P hg hA ih =>
    intro q n w hq hw
    cases q <;> simp only [Ask.Matches] at hq
    obtain ⟨cells, w1, h1, h2, h3, h4⟩ := bulkLoop_safe (P := P)
      (f := fun n => World.call env g (.size n)) (fun m w hw => by
        obtain ⟨c, w', e1, e2, -, e4⟩ := ih (q := .size _) (n := m) rfl hw
        exact ⟨c, w', e1, e2, e4⟩) (fun c hc => hA c (hq.2 c hc)) hw
    exact ⟨cells, w1, by rw [World.call, h1], h2, h3.trans hq.1, h4⟩
  | @bulkSamples g A P hg hA ih =>
    intro q n w hq hw
    cases q <;> simp only [Ask.Matches] at hq
    obtain ⟨cells, w1, h1, h2, h3, h4⟩ := bulkLoop_safe (P := P)
      (f := fun n => World.call env g (.size n)) (fun m w hw => by
        obtain ⟨c, w', e1, e2, -, e4⟩ := ih (q := .size _) (n := m) rfl hw
        exact ⟨c, w', e1, e2, e4⟩) (fun c hc => hA c (hq.2 c hc)) hw
    exact ⟨cells, w1, by rw [World.call, h1], h2, h3.trans hq.1, h4⟩
  | weaken hg h ih =>
    intro q n w hq hw
    obtain ⟨cells, w1, h1, h2, h3, h4⟩ := ih hq hw
    exact ⟨cells, w1, h1, h2, h3, fun c hc => h c (h4 c hc)⟩

end Trumania
