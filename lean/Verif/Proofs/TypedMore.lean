import Verif.Proofs.TypedOps

/-! Helper lemmas: the operations on stories, logs, rows and lookups, and chains of operations, never
raise on well-formed story data. -/

namespace Trumania
open Spec World
variable {σ γ : Type} {env : Env σ γ} {S : Sig γ} {M : Val → Prop} {Γ : Ctx}
variable {data : Frame} {w : World σ γ}

/-! ### Conditions and ids -/

theorem asBools {cells : List Cell} (h : ∀ c ∈ cells, IsBool c) :
    ∃ bs : List Bool, cells.mapM Cell.asBool = .ok bs ∧ bs.length = cells.length := by
  obtain ⟨bs, hbs⟩ := mapM_isOk (f := Cell.asBool) (l := cells) fun c hc => by
    obtain ⟨b, rfl⟩ := h c hc
    exact ⟨b, rfl⟩
  exact ⟨bs, hbs, (mapM_ok_iff.1 hbs).length_eq.symm⟩

theorem notna_isId {P : Val → Prop} {c : Cell} (h : IdOrNa P c) (hn : c.notna = true) : IdIn P c := by
  rcases h with rfl | h
  · cases hn
  · exact h

theorem knownIds {P : Val → Prop} {cells : List Cell} (h : ∀ c ∈ cells, IdOrNa P c) :
    ∃ vs, (cells.filter Cell.notna).mapM Cell.asVal = .ok vs ∧ ∀ v ∈ vs, P v := by
  have h' : ∀ c ∈ cells.filter Cell.notna, IdIn P c := fun c hc =>
    notna_isId (h c (List.mem_of_mem_filter hc)) (List.mem_filter.1 hc).2
  obtain ⟨vs, h1, h2⟩ := Spec.Typed.asVals fun c hc => (h' c hc).imp fun _ h => h.1
  refine ⟨vs, h1, fun v hv => ?_⟩
  obtain ⟨u, hu, hP⟩ := h' (.scalar v) (by rw [h2]; exact List.mem_map.2 ⟨v, hv, rfl⟩)
  cases hu
  exact hP

theorem maskedIds_safe (hd : Typed M Γ data) {i : String} {cond : Option String} {P : Val → Prop}
    (hi : Γ.Has M i fun _ => IdOrNa P) (hc : ∀ c, cond = some c → Γ.Has M c fun _ => IsBool) :
    ∃ cells, Ops.maskedIds i cond data = .ok cells ∧ ∀ c ∈ cells, IdOrNa P c := by
  obtain ⟨cells, h1, -, h3⟩ := hd.col' hi
  cases cond with
  | none => exact ⟨cells, h1, h3⟩
  | some c =>
    obtain ⟨cs, h4, -, h6⟩ := hd.col' (hc c rfl)
    obtain ⟨bs, h7, -⟩ := asBools h6
    refine ⟨_, bind_eq_ok.2 ⟨cs, h4, bind_eq_ok.2 ⟨bs, h7, bind_eq_ok.2 ⟨cells, h1, rfl⟩⟩⟩, ?_⟩
    intro x hx
    obtain ⟨k, hk, rfl⟩ := List.getElem_of_mem hx
    rw [List.getElem_zipWith]
    split
    · exact h3 _ (List.getElem_mem _)
    · exact Or.inl rfl

theorem conditioned_safe (hd : Typed M Γ data) {cond : Option String}
    (hc : ∀ c, cond = some c → Γ.Has M c fun _ => IsBool) :
    ∃ out, Ops.conditioned cond data = .ok out ∧ Typed M Γ out := by
  cases cond with
  | none => exact ⟨data, rfl, hd⟩
  | some c =>
    obtain ⟨cs, h4, -, h6⟩ := hd.col' (hc c rfl)
    obtain ⟨bs, h7, -⟩ := asBools h6
    exact ⟨_, bind_eq_ok.2 ⟨cs, h4, bind_eq_ok.2 ⟨bs, h7, rfl⟩⟩, hd.sub (Frame.mask_rows_sublist _ _)⟩

/-! ### Stories -/

theorem forceActNext_safe (hd : Typed M Γ data) (hw : Fits env S w) {story : Nat} {i : String}
    {cond : Option String} {K : StoryKind} (hs : S.stories[story]? = some K)
    (hi : Γ.Has M i fun _ => IdOrNa K.members)
    (hc : ∀ c, cond = some c → Γ.Has M c fun _ => IsBool) :
    SafeRun env S M Γ (Ops.forceActNext story i cond) data w := by
  refine side_safe hd ?_
  split
  · exact ⟨w, rfl, hw⟩
  obtain ⟨cells, h1, h2⟩ := maskedIds_safe hd hi hc
  obtain ⟨ids, h3, h4⟩ := knownIds h2
  obtain ⟨w', h5, h6⟩ := onStory_safe hs (f := fun s => s.forceActNext ids)
    (fun s hf => hf.forceActNext h4) hw
  refine ⟨w', ?_, h6⟩
  rw [Act.bind_ok (Act.ofPy_ok h1 w), Act.bind_ok (Act.ofPy_ok h3 w), h5]

theorem resetTimersOp_safe (hd : Typed M Γ data) (hw : Fits env S w) {story : Nat} {i : String}
    {K : StoryKind} (hs : S.stories[story]? = some K) (hi : Γ.Has M i fun _ => IdOrNa K.members) :
    SafeRun env S M Γ (Ops.resetTimers env story (some i)) data w := by
  refine side_safe hd ?_
  obtain ⟨cells, h1, -, h2⟩ := hd.col' hi
  obtain ⟨ids, h3, h4⟩ := knownIds h2
  obtain ⟨w', h5, h6⟩ := resetTimers_safe hs (ids := some (uniq ids)) (by
    intro l hl x hx
    cases hl
    exact h4 x (mem_uniq.1 hx)) hw
  refine ⟨w', ?_, h6⟩
  rw [Act.bind_ok (Act.ofPy_ok (show Ops.resetIds (some i) data = .ok (uniq ids) from
    bind_eq_ok.2 ⟨_, h1, bind_eq_ok.2 ⟨_, h3, rfl⟩⟩) w), h5]

theorem resetTimersOwn_safe (hd : Typed M Γ data) (hw : Fits env S w) {story : Nat}
    {K : StoryKind} (hs : S.stories[story]? = some K) (hm : ∀ v, M v → K.members v) :
    SafeRun env S M Γ (Ops.resetTimers env story none) data w := by
  refine side_safe hd ?_
  obtain ⟨w', h5, h6⟩ := resetTimers_safe hs (ids := some data.index) (by
    intro l hl x hx
    cases hl
    exact hm _ (hd.labels x hx)) hw
  refine ⟨w', ?_, h6⟩
  rw [Act.bind_ok (Act.ofPy_ok (show Ops.resetIds none data = .ok data.index from rfl) w), h5]

theorem transit_safe (hd : Typed M Γ data) (hw : Fits env S w) {story : Nat} {i : String}
    {src : Ops.StateSource} {cond : Option String} {K : StoryKind} (hs : S.stories[story]? = some K)
    (hc : ∀ c, cond = some c → Γ.Has M c fun _ => IsBool)
    (ht : ∀ d, Typed M Γ d → ∃ ts, Ops.transitions i src d = .ok ts ∧
      ∀ x ∈ ts, K.members x.1 ∧ K.states x.2) :
    SafeRun env S M Γ (Ops.transitToState story i src cond) data w := by
  refine side_safe hd ?_
  obtain ⟨d, h1, h2⟩ := conditioned_safe hd hc
  obtain ⟨ts, h3, h4⟩ := ht d h2
  obtain ⟨w', h5, h6⟩ := onStory_safe hs
    (f := fun s => s.transitToState (ts.map Prod.fst) (ts.map Prod.snd))
    (fun s hf => hf.transitToState (by
        intro x hx
        obtain ⟨y, hy, rfl⟩ := List.mem_map.1 hx
        exact (h4 y hy).1) (by simp) (by
        intro x hx
        obtain ⟨y, hy, rfl⟩ := List.mem_map.1 hx
        exact (h4 y hy).2)) hw
  refine ⟨w', ?_, h6⟩
  rw [Act.bind_ok (Act.ofPy_ok h1 w), Act.bind_ok (Act.ofPy_ok h3 w), h5]

theorem transitToState_safe (hd : Typed M Γ data) (hw : Fits env S w) {story : Nat} {i : String}
    {st : Val} {cond : Option String} {K : StoryKind} (hs : S.stories[story]? = some K)
    (hi : Γ.Has M i fun _ => IdOrNa K.members) (hst : K.states st)
    (hc : ∀ c, cond = some c → Γ.Has M c fun _ => IsBool) :
    SafeRun env S M Γ (Ops.transitToState story i (.const st) cond) data w := by
  refine transit_safe hd hw hs hc fun d hd' => ?_
  obtain ⟨cells, h1, -, h2⟩ := hd'.col' hi
  obtain ⟨ids, h3, h4⟩ := knownIds h2
  refine ⟨_, bind_eq_ok.2 ⟨_, h1, bind_eq_ok.2 ⟨_, h3, rfl⟩⟩, ?_⟩
  intro x hx
  obtain ⟨v, hv, rfl⟩ := List.mem_map.1 hx
  exact ⟨h4 v hv, hst⟩

theorem transitToField_safe (hd : Typed M Γ data) (hw : Fits env S w) {story : Nat} {i name : String}
    {cond : Option String} {K : StoryKind} (hs : S.stories[story]? = some K)
    (hi : Γ.Has M i fun _ => IdOrNa K.members) (hst : Γ.Has M name fun _ => IdOrNa K.states)
    (hc : ∀ c, cond = some c → Γ.Has M c fun _ => IsBool) :
    SafeRun env S M Γ (Ops.transitToState story i (.field name) cond) data w := by
  refine transit_safe hd hw hs hc fun d hd' => ?_
  obtain ⟨cells, h1, -, h2⟩ := hd'.col' hi
  obtain ⟨sts, h3, -, h4⟩ := hd'.col' hst
  have hx : ∀ x ∈ (cells.zip sts).filter (fun x => x.1.notna && x.2.notna),
      IdIn K.members x.1 ∧ IdIn K.states x.2 := by
    intro x hx
    obtain ⟨hx1, hx2⟩ := List.mem_filter.1 hx
    rw [Bool.and_eq_true] at hx2
    exact ⟨notna_isId (h2 _ (List.of_mem_zip hx1).1) hx2.1, notna_isId (h4 _ (List.of_mem_zip hx1).2) hx2.2⟩
  generalize hl : (cells.zip sts).filter (fun x => x.1.notna && x.2.notna) = l at hx
  have : ∃ ts : List (Val × Val), (l.mapM fun x => do
      .ok (← x.1.asVal, ← x.2.asVal) : Py _) = .ok ts ∧ ∀ x ∈ ts, K.members x.1 ∧ K.states x.2 := by
    clear hl
    induction l with
    | nil => exact ⟨[], rfl, by simp⟩
    | cons x l ih =>
      obtain ⟨ts, e1, e2⟩ := ih fun x h => hx x (by simp [h])
      obtain ⟨⟨a, ha, ha'⟩, ⟨b, hb, hb'⟩⟩ := hx x (by simp)
      refine ⟨(a, b) :: ts, ?_, ?_⟩
      · rw [List.mapM_cons, e1, ha, hb]; rfl
      · intro y hy
        rcases List.mem_cons.1 hy with rfl | hy
        · exact ⟨ha', hb'⟩
        · exact e2 y hy
  obtain ⟨ts, e1, e2⟩ := this
  refine ⟨ts, bind_eq_ok.2 ⟨_, h1, bind_eq_ok.2 ⟨_, h3, ?_⟩⟩, e2⟩
  rw [hl]
  exact e1

theorem maybeBack_safe (hd : Typed M Γ data) (hw : Fits env S w) {story : Nat}
    {K : StoryKind} (hs : S.stories[story]? = some K) (hm : ∀ v, M v → K.members v) :
    SafeRun env S M Γ (Ops.maybeBackToDefault env story) data w :=
  side_safe hd (onStory_safe hs (fun _ hf =>
    hf.maybeBackToDefault fun i hi => hm i (hd.labels i hi)) hw)

/-! ### Logs and rows -/

theorem fieldLogger_safe (hd : Typed M Γ data) (hw : Fits env S w) {logId : String}
    {cols : List String} (hc : ∀ c ∈ cols, c ∈ Γ.names) :
    SafeRun env S M Γ (Ops.fieldLogger logId cols []) data w := by
  have : ∃ f, Ops.loggedData cols [] data = .ok f := by
    have e : Ops.explode [] data = .ok data := rfl
    rw [Ops.loggedData, e, Ops.loggerCols, List.append_nil]
    by_cases hn : cols = []
    · exact ⟨data, if_pos hn⟩
    · obtain ⟨out, ho⟩ := Frame.select_total hd.rect hd.nodupCols (names := cols)
        fun c h => by rw [hd.cols]; exact hc c h
      exact ⟨out, (if_neg hn).trans ho⟩
  obtain ⟨f, hf⟩ := this
  refine ⟨data, [(logId, f)], w, ?_, hd, hw⟩
  rw [Ops.fieldLogger, Act.bind_ok (Act.ofPy_ok hf w)]
  rfl

theorem dropRow_safe (hd : Typed M Γ data) (hw : Fits env S w) {f : String}
    (hf : Γ.Has M f fun _ => IsBool) : SafeRun env S M Γ (Ops.dropRow f) data w := by
  obtain ⟨cs, h4, -, h6⟩ := hd.col' hf
  obtain ⟨bs, h7, -⟩ := asBools h6
  exact ⟨data.mask (bs.map (!·)), [], w, transform_eq_ok.2
    ⟨rfl, _, bind_eq_ok.2 ⟨cs, h4, bind_eq_ok.2 ⟨bs, h7, rfl⟩⟩, rfl⟩,
    hd.sub (Frame.mask_rows_sublist _ _), hw⟩

/-! ### Lookups -/

/-- the cell that decides between scalars and lists -/
theorem firstCell (hd : Typed M Γ data) {i : String} {A : Cell → Prop} (hi : Γ.Has M i fun _ => A)
    {r : Row} (hr : r ∈ data.rows) :
    ∃ k c, data.pos i = .ok k ∧ Frame.cellAt k r = .ok c ∧ A c := by
  obtain ⟨cells, h1, -, h3⟩ := hd.col' hi
  obtain ⟨k, h4, h5⟩ := bind_eq_ok.1 h1
  obtain ⟨c, hc, h6⟩ := forall₂_exists_right (mapM_ok_iff.1 h5) hr
  exact ⟨k, c, h4, h6, h3 c hc⟩

/-- a frame made of columns of cells -/
theorem columns_typed (hd : Typed M Γ data) {Δ : Ctx} {cols : List (List Cell)} (hn : Δ.names.Nodup)
    (h : List.Forall₂ (fun (x : String × (Val → Cell → Prop)) col =>
      col.length = data.rows.length ∧ ∀ c ∈ col, ∀ l, x.2 l c) Δ cols) :
    Typed M Δ ⟨Δ.names, data.index.zipIdx.map fun x => ⟨x.1, cols.map fun c => c.getD x.2 Cell.na⟩⟩ := by
  have hidx : (Frame.mk Δ.names (data.index.zipIdx.map fun x =>
      ⟨x.1, cols.map fun c => c.getD x.2 Cell.na⟩)).index = data.index := by
    rw [Frame.index, List.map_map]
    exact List.zipIdx_map_fst _ _
  refine ⟨rfl, hn, by rw [hidx]; exact hd.index, fun i hi => hd.labels i (by rwa [hidx] at hi), ?_⟩
  intro r hr
  obtain ⟨x, hx, rfl⟩ := List.mem_map.1 hr
  have hlt : x.2 < data.rows.length := by
    have := List.snd_lt_of_mem_zipIdx hx
    rw [Frame.index_length] at this
    omega
  exact (rows_of_columns (Q := fun x c => ∀ l, x.2 l c) h hlt).imp fun _ _ h => h _

theorem lookup_run (hd : Typed M Γ data) (hw : Fits env S w) {pop : Nat} {i : String}
    {sel : Dict String String} {P : Dict String AttKind} {Δ : Ctx} (hpop : S.pops[pop]? = some P)
    (hn : (Γ.names ++ Δ.names).Nodup)
    (h : ∀ p, PopFits P p → ∃ added, Ops.lookupOutput p i sel data = .ok added ∧
      added.index = data.index ∧ Typed M Δ added) :
    SafeRun env S M (Γ ++ Δ) (Ops.lookup pop i sel) data w := by
  obtain ⟨p, h1, h2⟩ := hw.pop hpop
  obtain ⟨added, h3, h4, h5⟩ := h p h2
  refine ⟨_, [], w, addColumns_eq_ok.2 ⟨added, ?_, rfl⟩,
    hd.merge h5 hn (fun _ i hi => by rw [h4]; exact hi), hw⟩
  rw [Act.bind_ok (getPop_eq_ok.2 ⟨h1, rfl⟩)]
  exact Act.ofPy_ok h3 w

theorem lookup_empty (hr : data.rows = []) {p : Population} {i : String}
    {sel : Dict String String} {Δ : Ctx} (hs : sel.map Prod.snd = Δ.names) (hn : Δ.names.Nodup) :
    ∃ added, Ops.lookupOutput p i sel data = .ok added ∧ added.index = data.index ∧
      Typed M Δ added := by
  refine ⟨⟨sel.map Prod.snd, []⟩, ?_, by rw [Frame.index, Frame.index, hr], hs, hn, by simp [Frame.index],
    by simp [Frame.index], by simp⟩
  rw [Ops.lookupOutput, hr]

theorem lookup_safe (hd : Typed M Γ data) (hw : Fits env S w) {pop : Nat} {i : String}
    {sel : Dict String String} {P : Dict String AttKind} (hpop : S.pops[pop]? = some P)
    (hi : Γ.Has M i fun _ => IsId)
    (hs : ∀ x ∈ sel, ∃ k, P.get? x.1 = some k ∧ Γ.Has M i fun _ => IdIn k.known)
    (hn : (Γ.names ++ sel.map Prod.snd).Nodup) :
    SafeRun env S M (Γ ++ sel.map fun x => (x.2, fun _ => attValue P x.1)) (Ops.lookup pop i sel)
      data w := by
  have hnames : Ctx.names (sel.map fun x => (x.2, fun _ => attValue P x.1)) = sel.map Prod.snd := by
    rw [Ctx.names, List.map_map]; rfl
  refine lookup_run hd hw hpop (by rw [hnames]; exact hn) fun p hp => ?_
  have hn' := (List.nodup_append.1 hn).2.1
  cases hr : data.rows with
  | nil => exact lookup_empty hr hnames.symm (by rw [hnames]; exact hn')
  | cons r rows =>
    obtain ⟨k, c, h1, h2, v, rfl⟩ := firstCell hd hi (r := r) (by simp [hr])
    obtain ⟨ids, h3, h4⟩ := hd.ids' hi
    have hsel : ∀ s ∈ sel, ∃ cs, p.getAttributeValues s.1 ids = .ok cs ∧ cs.length = data.rows.length ∧
        ∀ c ∈ cs, attValue P s.1 c := by
      intro s hs'
      obtain ⟨k, hk, hik⟩ := hs s hs'
      obtain ⟨ids', g1, g2, g3⟩ := hd.ids hik
      have : ids' = ids := by rw [h3] at g1; cases g1; rfl
      subst this
      obtain ⟨cs, e1, e2, e3⟩ := hp.getAttributeValues hk g3
      exact ⟨cs, e1, by omega, e3⟩
    have : ∃ vals, sel.mapM (fun s => p.getAttributeValues s.1 ids) = .ok vals ∧
        List.Forall₂ (fun (x : String × (Val → Cell → Prop)) col =>
          col.length = data.rows.length ∧ ∀ c ∈ col, ∀ l, x.2 l c)
          (sel.map fun x => (x.2, fun _ => attValue P x.1)) vals := by
      clear hs hn hn' hnames
      induction sel with
      | nil => exact ⟨[], rfl, .nil⟩
      | cons s sel ih =>
        obtain ⟨cs, e1, e2, e3⟩ := hsel s (by simp)
        obtain ⟨vals, e4, e5⟩ := ih fun x hx => hsel x (by simp [hx])
        exact ⟨cs :: vals, by rw [List.mapM_cons, e1, e4]; rfl, .cons ⟨e2, fun c hc _ => e3 c hc⟩ e5⟩
    obtain ⟨vals, h5, h6⟩ := this
    have h7 := columns_typed hd (by rw [hnames]; exact hn') h6
    rw [hnames] at h7
    have hidx : (Frame.mk (sel.map Prod.snd) (data.index.zipIdx.map fun x =>
        ⟨x.1, vals.map fun c => c.getD x.2 Cell.na⟩)).index = data.index := by
      rw [Frame.index, List.map_map]
      exact List.zipIdx_map_fst _ _
    refine ⟨_, ?_, hidx, h7⟩
    rw [Ops.lookupOutput, hr]
    refine bind_eq_ok.2 ⟨k, h1, bind_eq_ok.2 ⟨_, h2, ?_⟩⟩
    refine bind_eq_ok.2 ⟨ids, h3, bind_eq_ok.2 ⟨vals, h5, ?_⟩⟩
    rw [if_neg, foldl_mergedCols [] (by simpa using hn')]
    · rfl
    · rw [List.any_eq_true]
      rintro ⟨s, hs1, hs2⟩
      have hs2 := of_decide_eq_true hs2
      obtain ⟨K, hK, -⟩ := hi
      exact (List.nodup_append.1 hn).2.2 i (List.mem_map.2 ⟨_, hK, rfl⟩) s.2
        (List.mem_map.2 ⟨s, hs1, rfl⟩) hs2.symm

theorem lookupLists_safe (hd : Typed M Γ data) (hw : Fits env S w) {pop : Nat} {i : String}
    {sel : Dict String String} {P : Dict String AttKind} (hpop : S.pops[pop]? = some P)
    (hi : Γ.Has M i fun _ => ListOf fun _ => True)
    (hs : ∀ x ∈ sel, ∃ k, P.get? x.1 = some k ∧ (Γ.Has M i fun _ => ListOf k.known) ∧
      ∀ c, k.value c → IsId c)
    (hn : (Γ.names ++ sel.map Prod.snd).Nodup) :
    SafeRun env S M
      (Γ ++ sel.map fun x => (x.2, fun _ => ListOf fun v => attValue P x.1 (.scalar v)))
      (Ops.lookup pop i sel) data w := by
  have hnames : Ctx.names (sel.map fun x =>
      (x.2, fun _ => ListOf fun v => attValue P x.1 (.scalar v))) = sel.map Prod.snd := by
    rw [Ctx.names, List.map_map]; rfl
  refine lookup_run hd hw hpop (by rw [hnames]; exact hn) fun p hp => ?_
  have hn' := (List.nodup_append.1 hn).2.1
  cases hr : data.rows with
  | nil => exact lookup_empty hr hnames.symm (by rw [hnames]; exact hn')
  | cons r rows =>
    obtain ⟨k, c, h1, h2, v, rfl, -⟩ := firstCell hd hi (r := r) (by simp [hr])
    obtain ⟨cs, h3, h4, h5⟩ := hd.col' hi
    obtain ⟨ls, h6, hls, -⟩ := asLists h5
    have hlen : ls.length = data.rows.length := by rw [hls, List.length_map] at h4; exact h4
    have hsel : ∀ s ∈ sel, ∃ cells, (ls.mapM fun ids => do
          let vals ← p.getAttributeValues s.1 ids
          .ok (Cell.list (← vals.mapM Cell.asVal)) : Py (List Cell)) = .ok cells ∧
        cells.length = data.rows.length ∧
        ∀ c ∈ cells, ListOf (fun v => attValue P s.1 (.scalar v)) c := by
      intro s hs'
      obtain ⟨k, hk, hik, hv⟩ := hs s hs'
      obtain ⟨cs', g1, g2, g3⟩ := hd.col' hik
      have : cs' = cs := by rw [h3] at g1; cases g1; rfl
      subst this
      have g4 : ∀ l ∈ ls, ∀ v ∈ l, k.known v := by
        intro l hl
        obtain ⟨l', e, hl'⟩ := g3 (.list l) (by rw [hls]; exact List.mem_map.2 ⟨l, hl, rfl⟩)
        cases e
        exact hl'
      rw [← hlen]
      clear hls hlen h6 h1 h2 h3 h4 h5 g1 g2 g3
      induction ls with
      | nil => exact ⟨[], rfl, rfl, by simp⟩
      | cons l ls ih =>
        obtain ⟨cells, e1, e2, e3⟩ := ih fun l hl => g4 l (by simp [hl])
        obtain ⟨vals, e4, -, e6⟩ := hp.getAttributeValues hk (g4 l (by simp))
        obtain ⟨us, e7, e8⟩ := Spec.Typed.asVals (cells := vals) fun c hc => by
          obtain ⟨k', hk', hc'⟩ := e6 c hc
          rw [hk] at hk'
          cases hk'
          exact hv c hc'
        refine ⟨.list us :: cells, ?_, by simp [e2], ?_⟩
        · rw [List.mapM_cons, e1, e4]
          simp only [bind, Except.bind]
          rw [e7]
          rfl
        · intro c hc
          rcases List.mem_cons.1 hc with rfl | hc
          · refine ⟨us, rfl, fun v hv => e6 _ ?_⟩
            rw [e8]
            exact List.mem_map.2 ⟨v, hv, rfl⟩
          · exact e3 c hc
    have : ∃ cols : List (String × List Cell), (sel.mapM fun s => do
          let cells ← ls.mapM fun ids => do
            let vals ← p.getAttributeValues s.1 ids
            .ok (Cell.list (← vals.mapM Cell.asVal))
          .ok (s.2, cells) : Py _) = .ok cols ∧ cols.map Prod.fst = sel.map Prod.snd ∧
        List.Forall₂ (fun (x : String × (Val → Cell → Prop)) col =>
          col.length = data.rows.length ∧ ∀ c ∈ col, ∀ l, x.2 l c)
          (sel.map fun x => (x.2, fun _ => ListOf fun v => attValue P x.1 (.scalar v)))
          (cols.map Prod.snd) := by
      clear hs hn hn' hnames
      induction sel with
      | nil => exact ⟨[], rfl, rfl, .nil⟩
      | cons s sel ih =>
        obtain ⟨cs, e1, e2, e3⟩ := hsel s (by simp)
        obtain ⟨vals, e4, e6, e5⟩ := ih fun x hx => hsel x (by simp [hx])
        refine ⟨(s.2, cs) :: vals, ?_, by simp [e6], .cons ⟨e2, fun c hc _ => e3 c hc⟩ e5⟩
        rw [List.mapM_cons, e1, e4]; rfl
    obtain ⟨cols, h7, h8, h9⟩ := this
    have h10 := columns_typed hd (by rw [hnames]; exact hn') h9
    rw [hnames, ← h8] at h10
    have hidx : (Frame.mk (cols.map Prod.fst) (data.index.zipIdx.map fun x =>
        ⟨x.1, (cols.map Prod.snd).map fun c => c.getD x.2 Cell.na⟩)).index = data.index := by
      rw [Frame.index, List.map_map]
      exact List.zipIdx_map_fst _ _
    refine ⟨_, ?_, hidx, h10⟩
    rw [Ops.lookupOutput, hr]
    refine bind_eq_ok.2 ⟨k, h1, bind_eq_ok.2 ⟨_, h2, ?_⟩⟩
    refine bind_eq_ok.2 ⟨cs, h3, bind_eq_ok.2 ⟨ls, h6, bind_eq_ok.2 ⟨cols, h7, ?_⟩⟩⟩
    rw [foldl_set_nodup [] (by rw [List.nil_append, h8]; exact hn'), List.nil_append]
    simp only [List.map_map]
    rfl

/-! ### Chains -/

/-- a chain that is safe from no logs is safe from any logs -/
theorem runOps_safe {Γ' : Ctx} {ops : List (Op (World σ γ))} {acc : Logs}
    (h : SafeRun env S M Γ' (World.chain env.logSet ops) data w) :
    ∃ out logs w', runOps env.logSet (data, acc) ops w = .ok (out, logs) w' ∧ Typed M Γ' out ∧
      Fits env S w' := by
  obtain ⟨out, logs, w', h1, h2, h3⟩ := h
  suffices H : ∀ (ops : List (Op (World σ γ))) (data : Frame) (a b : Logs) (w w' : World σ γ) out logs,
      runOps env.logSet (data, a) ops w = .ok (out, logs) w' →
      ∃ logs', runOps env.logSet (data, b) ops w = .ok (out, logs') w' by
    obtain ⟨l, hl⟩ := H ops data [] acc w w' out logs h1
    exact ⟨out, l, w', hl, h2, h3⟩
  intro ops
  induction ops with
  | nil =>
    intro data a b w w' out logs h
    cases h
    exact ⟨b, rfl⟩
  | cons op ops ih =>
    intro data a b w w' out logs h
    rw [runOps] at h
    obtain ⟨⟨mid, l⟩, w1, h1, h2⟩ := Act.bind_eq_ok.1 h
    rw [executeOperation] at h1
    obtain ⟨⟨mid', supp⟩, w2, h3, h4⟩ := Act.bind_eq_ok.1 h1
    obtain ⟨l', w3, h5, h6⟩ := Act.bind_eq_ok.1 h4
    obtain ⟨h5, rfl⟩ := Act.ofPy_eq_ok.1 h5
    cases h6
    obtain ⟨r, hr, -⟩ := executeOperation_ok (so := env.logSet) (acc := b) h3
    obtain ⟨logs'', hl''⟩ := ih mid l r _ w' out logs h2
    refine ⟨logs'', ?_⟩
    rw [runOps, Act.bind_ok hr, hl'']

theorem chain_safe {Γ1 Γ2 : Ctx} {op : Op (World σ γ)} {ops : List (Op (World σ γ))}
    (h : SafeRun env S M Γ1 op data w)
    (hs : ∀ data w, Typed M Γ1 data → Fits env S w →
      SafeRun env S M Γ2 (World.chain env.logSet ops) data w) :
    SafeRun env S M Γ2 (World.chain env.logSet (op :: ops)) data w := by
  obtain ⟨mid, l, w1, h1, h2, h3⟩ := h
  obtain ⟨r, hr, -⟩ := executeOperation_ok (so := env.logSet) (acc := []) h1
  obtain ⟨out, logs, w', h4, h5, h6⟩ := runOps_safe (acc := r) (hs mid w1 h2 h3)
  refine ⟨out, logs, w', ?_, h5, h6⟩
  rw [World.chain, runOps, Act.bind_ok hr, h4]

end Trumania
