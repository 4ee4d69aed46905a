import Verif.Proofs.Ops

/-! The built-in operations act on stories through their methods only. -/

namespace Trumania
open Spec World
variable {σ γ : Type} {env : Env σ γ} {F Z : Nat → Prop} {F' Z' : Nat → Val → Prop}
variable {G : List γ → Prop}

theorem generate_rest (hI : GenKept env G) {g : GenRef} {n : Rat} {w w' : World σ γ}
    {cells : List Cell} (h : World.generate env g n w = .ok cells w') : Api env F' Z' G w w' :=
  .rest (call_sameRest h).1 fun hg => call_gens hI hg h

theorem observe_rest (hI : GenKept env G) {g : GenRef} {obs : List Cell} {w w' : World σ γ}
    {cells : List Cell} (h : World.observe env g obs w = .ok cells w') : Api env F' Z' G w w' :=
  .rest (call_sameRest h).1 fun hg => call_gens hI hg h

theorem randomCells_rest (hI : GenKept env G) {g : GenRef} {q : Option String} {data : Frame}
    {w w' : World σ γ} {cells : List Cell} (h : Ops.randomCells env g q data w = .ok cells w') :
    Api env F' Z' G w w' := by
  cases q with
  | none => exact generate_rest hI h
  | some f =>
    obtain ⟨_, w1, h1, h2⟩ := Act.bind_eq_ok.1 h
    obtain ⟨_, w2, h3, h4⟩ := Act.bind_eq_ok.1 h2
    obtain ⟨_, w3, h5, h6⟩ := Act.bind_eq_ok.1 h4
    obtain ⟨-, rfl⟩ := Act.ofPy_eq_ok.1 h1
    obtain ⟨-, rfl⟩ := Act.ofPy_eq_ok.1 h5
    obtain ⟨-, rfl⟩ := Act.pure_eq_ok.1 h6
    exact generate_rest hI h3

theorem columnAdder_api (hI : GenKept env G) {name : String} {op : Op (World σ γ)}
    (hop : ColumnAdder env name op) {data : Frame} {out : Frame × Logs} {w w' : World σ γ}
    (h : op data w = .ok out w') : Api env F' Z' G w w' := by
  cases hop with
  | randomValues g q =>
    obtain ⟨o, h1, -⟩ := addColumns_eq_ok.1 h
    obtain ⟨v, w1, h2, h3⟩ := Act.bind_eq_ok.1 h1
    obtain ⟨-, rfl⟩ := Act.ofPy_eq_ok.1 h3
    exact randomCells_rest hI h2
  | randomValuesFromField g f =>
    obtain ⟨o, h1, -⟩ := addColumns_eq_ok.1 h
    obtain ⟨_, w1, h0, h2⟩ := Act.bind_eq_ok.1 h1
    obtain ⟨v, w2, h4, h3⟩ := Act.bind_eq_ok.1 h2
    obtain ⟨-, rfl⟩ := Act.ofPy_eq_ok.1 h0
    obtain ⟨-, rfl⟩ := Act.ofPy_eq_ok.1 h3
    exact observe_rest hI h4
  | timestamp r f =>
    obtain ⟨o, h1, -⟩ := addColumns_eq_ok.1 h
    obtain ⟨wa, w1, h0, h2⟩ := Act.bind_eq_ok.1 h1
    obtain ⟨⟨d, c⟩, w2, h4, h3⟩ := Act.bind_eq_ok.1 h2
    obtain ⟨_, w3, h5, h6⟩ := Act.bind_eq_ok.1 h3
    obtain ⟨-, rfl⟩ := Act.ofPy_eq_ok.1 h6
    obtain ⟨e4, rfl⟩ := Act.ofPy_eq_ok.1 h4
    cases h0
    cases h5
    refine .rest rfl ?_
    have : c.listeners = w.clock.listeners := by
      rw [Clock.getTimestamp] at e4
      split at e4
      · obtain ⟨⟨secs, s'⟩, -, h7⟩ := bind_eq_ok.1 e4
        cases h7
        rfl
      · cases e4
        rfl
    simp only [World.gens, this, imp_self]
  | neighbourhoodSize rel f =>
    obtain ⟨o, h1, -⟩ := addColumns_eq_ok.1 h
    obtain ⟨_, w1, h2, h3⟩ := Act.bind_eq_ok.1 h1
    obtain ⟨_, w2, h4, h5⟩ := Act.bind_eq_ok.1 h3
    obtain ⟨-, rfl⟩ := Act.ofPy_eq_ok.1 h2
    obtain ⟨-, rfl⟩ := getRel_eq_ok.1 h4
    obtain ⟨-, rfl⟩ := Act.ofPy_eq_ok.1 h5
    exact .rest rfl id
  | applySeries s f =>
    obtain ⟨o, h1, -⟩ := addColumns_eq_ok.1 h
    obtain ⟨-, rfl⟩ := Act.ofPy_eq_ok.1 h1
    exact .rest rfl id

theorem onRel_api {rel : Nat} {f : Relationship σ → Frame → Py (Relationship σ)} {data : Frame}
    {out : Frame × Logs} {w w' : World σ γ} (h : Ops.onRel rel f data w = .ok out w') :
    Api env F' Z' G w w' := by
  obtain ⟨h, -⟩ := sideEffect_eq_ok.1 h
  split at h
  · obtain ⟨-, rfl⟩ := Act.pure_eq_ok.1 h
    exact .rest rfl id
  · obtain ⟨r, w1, h1, h⟩ := Act.bind_eq_ok.1 h
    obtain ⟨r', w2, h2, h⟩ := Act.bind_eq_ok.1 h
    obtain ⟨-, rfl⟩ := getRel_eq_ok.1 h1
    obtain ⟨-, rfl⟩ := Act.ofPy_eq_ok.1 h2
    have h3 := setRel_eq_ok.1 h
    subst h3
    exact .rest rfl id

theorem onAttribute_api {pop : Nat} {name : String} {f : Attribute → Py Attribute}
    {w w' : World σ γ} (h : Ops.onAttribute pop name f w = .ok () w') : Api env F' Z' G w w' := by
  obtain ⟨p, w1, h1, h⟩ := Act.bind_eq_ok.1 h
  obtain ⟨a, w2, h2, h⟩ := Act.bind_eq_ok.1 h
  obtain ⟨a', w3, h3, h⟩ := Act.bind_eq_ok.1 h
  obtain ⟨-, rfl⟩ := getPop_eq_ok.1 h1
  obtain ⟨-, rfl⟩ := Act.ofPy_eq_ok.1 h2
  obtain ⟨-, rfl⟩ := Act.ofPy_eq_ok.1 h3
  have h3 := setPop_eq_ok.1 h
  subst h3
  exact .rest rfl id

theorem sideEffect_api {op : Op (World σ γ)} (hop : SideEffect env F Z op) {data : Frame}
    {out : Frame × Logs} {w w' : World σ γ} (h : op data w = .ok out w') :
    Api env (fun j _ => F j) (fun j _ => Z j) G w w' := by
  cases hop with
  | relAdd rel f i => exact onRel_api h
  | relAddGrouped rel f i => exact onRel_api h
  | relRemove rel f i => exact onRel_api h
  | attrUpdate pop name i c =>
    obtain ⟨h, -⟩ := sideEffect_eq_ok.1 h
    split at h
    · obtain ⟨-, rfl⟩ := Act.pure_eq_ok.1 h
      exact .rest rfl id
    · obtain ⟨_, w1, h1, h⟩ := Act.bind_eq_ok.1 h
      obtain ⟨_, w2, h2, h⟩ := Act.bind_eq_ok.1 h
      obtain ⟨-, rfl⟩ := Act.ofPy_eq_ok.1 h1
      obtain ⟨-, rfl⟩ := Act.ofPy_eq_ok.1 h2
      exact onAttribute_api h
  | attrAdd pop name i a sub =>
    obtain ⟨h, -⟩ := sideEffect_eq_ok.1 h
    split at h
    · obtain ⟨-, rfl⟩ := Act.pure_eq_ok.1 h
      exact .rest rfl id
    · obtain ⟨_, w1, h1, h⟩ := Act.bind_eq_ok.1 h
      obtain ⟨_, w2, h2, h⟩ := Act.bind_eq_ok.1 h
      obtain ⟨_, w3, h3, h⟩ := Act.bind_eq_ok.1 h
      obtain ⟨-, rfl⟩ := Act.ofPy_eq_ok.1 h1
      obtain ⟨-, rfl⟩ := Act.ofPy_eq_ok.1 h2
      obtain ⟨-, rfl⟩ := Act.ofPy_eq_ok.1 h3
      exact onAttribute_api h
  | popUpdate pop i copy =>
    obtain ⟨h, -⟩ := sideEffect_eq_ok.1 h
    obtain ⟨_, w1, h1, h⟩ := Act.bind_eq_ok.1 h
    obtain ⟨_, w2, h2, h⟩ := Act.bind_eq_ok.1 h
    obtain ⟨_, w3, h3, h⟩ := Act.bind_eq_ok.1 h
    obtain ⟨-, rfl⟩ := Act.ofPy_eq_ok.1 h1
    obtain ⟨-, rfl⟩ := getPop_eq_ok.1 h2
    obtain ⟨-, rfl⟩ := Act.ofPy_eq_ok.1 h3
    have h3 := setPop_eq_ok.1 h
    subst h3
    exact .rest rfl id
  | forceActNext story i cond hF =>
    obtain ⟨h, -⟩ := sideEffect_eq_ok.1 h
    split at h
    · obtain ⟨-, rfl⟩ := Act.pure_eq_ok.1 h
      exact .rest rfl id
    · obtain ⟨_, w1, h1, h⟩ := Act.bind_eq_ok.1 h
      obtain ⟨_, w2, h2, h⟩ := Act.bind_eq_ok.1 h
      obtain ⟨-, rfl⟩ := Act.ofPy_eq_ok.1 h1
      obtain ⟨-, rfl⟩ := Act.ofPy_eq_ok.1 h2
      obtain ⟨s, s', h3, h4, rfl⟩ := onStory_eq_ok.1 h
      exact .force h3 (fun _ _ => hF) h4
  | resetTimers story i hZ =>
    obtain ⟨h, -⟩ := sideEffect_eq_ok.1 h
    obtain ⟨_, w1, h1, h⟩ := Act.bind_eq_ok.1 h
    obtain ⟨-, rfl⟩ := Act.ofPy_eq_ok.1 h1
    obtain ⟨t, t', w2, h2, h3, rfl⟩ := resetTimers_eq_ok.1 h
    exact .reset h2 (fun _ _ => hZ) h
  | transitToState story i src cond =>
    obtain ⟨h, -⟩ := sideEffect_eq_ok.1 h
    obtain ⟨_, w1, h1, h⟩ := Act.bind_eq_ok.1 h
    obtain ⟨_, w2, h2, h⟩ := Act.bind_eq_ok.1 h
    obtain ⟨-, rfl⟩ := Act.ofPy_eq_ok.1 h1
    obtain ⟨-, rfl⟩ := Act.ofPy_eq_ok.1 h2
    obtain ⟨s, s', h3, h4, rfl⟩ := onStory_eq_ok.1 h
    exact .transit h3 h4
  | maybeBackToDefault story =>
    obtain ⟨h, -⟩ := sideEffect_eq_ok.1 h
    obtain ⟨s, s', h3, h4, rfl⟩ := onStory_eq_ok.1 h
    exact .back h3 h4

/-- the built-in operations are among those considered in histories -/
theorem builtIn_respects (hI : GenKept env G) {op : Op (World σ γ)} (hop : BuiltIn env F Z op) :
    Respects env (fun j _ => F j) (fun j _ => Z j) G op := by
  induction hop with
  | adder hop => exact fun data w out w' h => .single (columnAdder_api hI hop h)
  | effect hop => exact fun data w out w' h => .single (sideEffect_api hop h)
  | fieldLogger logId cols exploded =>
    intro data w out w' h
    obtain ⟨_, w1, h1, h⟩ := Act.bind_eq_ok.1 h
    obtain ⟨-, rfl⟩ := Act.ofPy_eq_ok.1 h1
    obtain ⟨-, rfl⟩ := Act.pure_eq_ok.1 h
    exact .refl
  | dropRow field =>
    intro data w out w' h
    obtain ⟨rfl, -⟩ := transform_eq_ok.1 h
    exact .refl
  | applyFrame sources namedAs f hf =>
    intro data w out w' h
    obtain ⟨o, h1, -⟩ := addColumns_eq_ok.1 h
    obtain ⟨-, rfl⟩ := Act.ofPy_eq_ok.1 h1
    exact .refl
  | selectOne rel f name o p d weight =>
    intro data w out w' h
    obtain ⟨_, _, _, _, -, -, -, rfl, -⟩ := selectOne_eq_ok h
    exact .single (.rest rfl id)
  | selectAll rel f name =>
    intro data w out w' h
    obtain ⟨_, _, -, -, rfl, -⟩ := selectAll_eq_ok h
    exact .refl
  | selectMany rel f name q p d =>
    intro data w out w' h
    obtain ⟨_, _, _, _, _, -, -, -, -, rfl, -⟩ := selectMany_eq_ok h
    exact .single (.rest rfl id)
  | lookup pop i sel =>
    intro data w out w' h
    obtain ⟨o, h1, -⟩ := addColumns_eq_ok.1 h
    obtain ⟨p, w1, h2, h3⟩ := Act.bind_eq_ok.1 h1
    obtain ⟨-, rfl⟩ := getPop_eq_ok.1 h2
    obtain ⟨-, rfl⟩ := Act.ofPy_eq_ok.1 h3
    exact .refl
  | chain ops _ ih =>
    intro data w out w' h
    exact runOps_apis ih h

end Trumania
