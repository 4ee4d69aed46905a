import Verif.Proofs.Hash
import Verif.Proofs.NewStory

/-! The order in which the states of a new story are handled. -/

namespace Trumania
open Spec
variable {σ γ : Type}

namespace World

/-- the same world with other states of the generators -/
def withGens (w : World σ γ) (l : List γ) : World σ γ :=
  { w with clock := { w.clock with listeners := l } }

theorem withGens_gens (w : World σ γ) : withGens w w.gens = w := rfl

/-- an action that only touches the generators in `A`, and only depends on them -/
def LocalTo {α : Type} (A : List Nat) (x : Act (World σ γ) α) : Prop :=
  ∀ w a w', x w = .ok a w' → ∃ l, w' = withGens w l ∧ l.length = w.gens.length ∧
    (∀ j, j ∉ A → l[j]? = w.gens[j]?) ∧
    ∀ m, m.length = w.gens.length → (∀ j ∈ A, m[j]? = w.gens[j]?) →
      ∃ m', x (withGens w m) = .ok a (withGens w m') ∧ m'.length = m.length ∧
        (∀ j ∈ A, m'[j]? = l[j]?) ∧ ∀ j, j ∉ A → m'[j]? = m[j]?

theorem LocalTo.pure {α : Type} {A : List Nat} (a : α) :
    LocalTo A (Pure.pure a : Act (World σ γ) α) := by
  intro w b w' h
  obtain ⟨rfl, rfl⟩ := Act.pure_eq_ok.1 h
  exact ⟨w.gens, rfl, rfl, fun _ _ => rfl, fun m hm hA => ⟨m, rfl, rfl, hA, fun _ _ => rfl⟩⟩

theorem LocalTo.throw {α : Type} {A : List Nat} (e : Err) :
    LocalTo A (throw e : Act (World σ γ) α) := by
  intro w b w' h
  cases h

theorem LocalTo.ofPy {α : Type} {A : List Nat} (x : Py α) :
    LocalTo A (Act.ofPy x : Act (World σ γ) α) := by
  cases x with
  | ok a => exact LocalTo.pure a
  | error e => exact LocalTo.throw e

theorem LocalTo.bind {α β : Type} {A : List Nat} {x : Act (World σ γ) α}
    {f : α → Act (World σ γ) β} (hx : LocalTo A x) (hf : ∀ a, LocalTo A (f a)) :
    LocalTo A (x >>= f) := by
  intro w b w2 h
  obtain ⟨a, w1, h1, h2⟩ := Act.bind_eq_ok.1 h
  obtain ⟨l, rfl, hl, hl2, hl3⟩ := hx w a w1 h1
  obtain ⟨k, rfl, hk, hk2, hk3⟩ := hf a _ b w2 h2
  have hk : k.length = l.length := hk
  have hk2 : ∀ j, j ∉ A → k[j]? = l[j]? := hk2
  refine ⟨k, rfl, hk.trans hl, fun j hj => (hk2 j hj).trans (hl2 j hj), fun m hm hA => ?_⟩
  obtain ⟨m', e1, e2, e3, e4⟩ := hl3 m hm hA
  obtain ⟨m'', g1, g2, g3, g4⟩ := hk3 m' (e2.trans (hm.trans hl.symm)) e3
  refine ⟨m'', ?_, g2.trans e2, g3, fun j hj => (g4 j hj).trans (e4 j hj)⟩
  rw [Act.bind_ok e1]
  exact g1

theorem LocalTo.mono {α : Type} {A B : List Nat} {x : Act (World σ γ) α} (hx : LocalTo A x)
    (h : ∀ j ∈ A, j ∈ B) : LocalTo B x := by
  intro w a w' hr
  obtain ⟨l, h1, h2, h3, h4⟩ := hx w a w' hr
  refine ⟨l, h1, h2, fun j hj => h3 j fun hA => hj (h j hA), fun m hm hB => ?_⟩
  obtain ⟨m', e1, e2, e3, e4⟩ := h4 m hm fun j hj => hB j (h j hj)
  refine ⟨m', e1, e2, fun j hj => ?_, fun j hj => e4 j fun hA => hj (h j hA)⟩
  by_cases hA : j ∈ A
  · exact e3 j hA
  · rw [e4 j hA, h3 j hA, hB j hj]

theorem local_getGen {A : List Nat} {i : Nat} (hi : i ∈ A) :
    LocalTo A (getGen i : Act (World σ γ) γ) := by
  intro w g w' h
  obtain ⟨h1, rfl⟩ := getGen_eq_ok.1 h
  refine ⟨w.gens, rfl, rfl, fun _ _ => rfl, fun m hm hA => ⟨m, ?_, rfl, hA, fun _ _ => rfl⟩⟩
  exact getGen_eq_ok.2 ⟨(hA i hi).trans h1, rfl⟩

theorem local_setGen {A : List Nat} {i : Nat} (hi : i ∈ A) (g : γ) :
    LocalTo A (setGen i g : Act (World σ γ) Unit) := by
  intro w u w' h
  have := setGen_eq_ok.1 h
  subst this
  have hne : ∀ j, j ∉ A → i ≠ j := by rintro j hj rfl; exact hj hi
  refine ⟨w.gens.set i g, rfl, by simp, fun j hj => List.getElem?_set_ne (hne j hj),
    fun m hm hA => ⟨m.set i g, ?_, by simp, fun j hj => ?_, fun j hj =>
      List.getElem?_set_ne (hne j hj)⟩⟩
  · exact setGen_eq_ok.2 rfl
  · rw [List.getElem?_set, List.getElem?_set, hm, hA j hj]

variable {env : Env σ γ}

theorem local_bulkLoop {A : List Nat} {f : Rat → Act (World σ γ) (List Cell)}
    (h : ∀ n, LocalTo A (f n)) (obs : List Cell) : LocalTo A (bulkLoop f obs) := by
  induction obs with
  | nil => exact .pure _
  | cons c cs ih =>
    exact (LocalTo.ofPy _).bind fun n => (h n).bind fun v => (LocalTo.ofPy _).bind fun vals =>
      ih.bind fun rest => .pure _

theorem local_isArray (g : GenRef) : LocalTo (refs g) (isArray env g) := by
  cases g with
  | ref i => exact (local_getGen (by simp [refs])).bind fun g => .pure _
  | constant v => exact .pure _
  | mapped g f => exact .pure _
  | mappedVect g f => exact .pure _
  | flatmapped g d => exact .pure _
  | bulk g => exact .pure _

theorem local_call (g : GenRef) : ∀ r, LocalTo (refs g) (call env g r) := by
  induction g with
  | constant v =>
    rintro (n | obs | ⟨a, obs⟩)
    · exact .pure _
    · exact .pure _
    · exact .throw _
  | ref i =>
    have hi : i ∈ refs (.ref i) := by simp [refs]
    rintro (n | obs | ⟨a, obs⟩)
    · exact (local_getGen hi).bind fun g => (LocalTo.ofPy _).bind fun x =>
        (local_setGen hi _).bind fun _ => .pure _
    · exact (local_getGen hi).bind fun g => (LocalTo.ofPy _).bind fun x =>
        (local_setGen hi _).bind fun _ => .pure _
    · exact (local_getGen hi).bind fun g => (LocalTo.ofPy _).bind fun _ => (LocalTo.ofPy _).bind
        fun x => (local_setGen hi _).bind fun _ => .pure _
  | mapped g f ih =>
    rintro (n | obs | ⟨a, obs⟩)
    · exact (ih _).bind fun v => .ofPy _
    · exact .throw _
    · exact .throw _
  | mappedVect g f ih =>
    rintro (n | obs | ⟨a, obs⟩)
    · exact (ih _).bind fun v => .ofPy _
    · exact .throw _
    · exact .throw _
  | flatmapped g d ih ih2 =>
    have h1 : ∀ j ∈ refs g, j ∈ refs (.flatmapped g d) := by simp +contextual [refs]
    have h2 : ∀ j ∈ refs d, j ∈ refs (.flatmapped g d) := by simp +contextual [refs]
    rintro (n | obs | ⟨a, obs⟩)
    · exact ((ih _).mono h1).bind fun v => ((local_isArray g).mono h1).bind fun a => (ih2 _).mono h2
    · exact .throw _
    · exact .throw _
  | bulk g ih =>
    rintro (n | obs | ⟨a, obs⟩)
    · exact .throw _
    · exact local_bulkLoop (fun n => ih (.size n)) obs
    · exact local_bulkLoop (fun n => ih (.size n)) obs

/-- actions on different generators can be swapped -/
theorem LocalTo.swap {α β : Type} {A B : List Nat} {x : Act (World σ γ) α} {y : Act (World σ γ) β}
    (hx : LocalTo A x) (hy : LocalTo B y) (hd : ∀ j ∈ A, j ∉ B) {w w1 w2 : World σ γ} {a : α} {b : β}
    (h1 : x w = .ok a w1) (h2 : y w1 = .ok b w2) :
    ∃ w1', y w = .ok b w1' ∧ x w1' = .ok a w2 := by
  obtain ⟨l, rfl, hl, hl2, hl3⟩ := hx w a w1 h1
  obtain ⟨k, rfl, hk, hk2, hk3⟩ := hy _ b w2 h2
  have hk : k.length = l.length := hk
  have hk2 : ∀ j, j ∉ B → k[j]? = l[j]? := hk2
  obtain ⟨m, e1, e2, e3, e4⟩ := hk3 w.gens hl.symm fun j hj =>
    (hl2 j fun hA => hd j hA hj).symm
  obtain ⟨m', g1, g2, g3, g4⟩ := hl3 m e2 fun j hj => e4 j (hd j hj)
  refine ⟨withGens w m, e1, ?_⟩
  have : m' = k := by
    apply List.ext_getElem?
    intro j
    by_cases hA : j ∈ A
    · rw [g3 j hA, hk2 j (hd j hA)]
    · rw [g4 j hA]
      by_cases hB : j ∈ B
      · exact e3 j hB
      · rw [e4 j hB, hk2 j hB, hl2 j hA]
  rw [g1, this]
  rfl

/-! ### Parameters of the states -/

/-- the values drawn for one state (story.py:61-63) -/
def drawState (env : Env σ γ) (size : Nat) (g : StateGens) :
    Act (World σ γ) (List Rat × List Rat) := do
  let activity ← generate env g.activity (size : Rat)
  let back ← generate env g.back (size : Rat)
  let activity ← Act.ofPy (numbers activity)
  let back ← Act.ofPy (numbers back)
  pure (activity, back)

theorem local_drawState (size : Nat) (g : StateGens) : LocalTo (usedBy g) (drawState env size g) :=
  ((local_call g.activity _).mono (by simp +contextual [usedBy])).bind fun _ =>
    ((local_call g.back _).mono (by simp +contextual [usedBy])).bind fun _ =>
      (LocalTo.ofPy _).bind fun _ => (LocalTo.ofPy _).bind fun _ => .pure _

theorem storyParams_cons_ok {ids : List Val} {size : Nat} {st : Val} {g : StateGens}
    {rest : List (Val × StateGens)} {params P : Dict Val (Dict Val StateParams)}
    {w w' : World σ γ} :
    storyParams env ids size ((st, g) :: rest) params w = .ok P w' ↔
      ∃ ab w1 ps, drawState env size g w = .ok ab w1 ∧
        Story.addState ids params st ab.1 ab.2 = .ok ps ∧
        storyParams env ids size rest ps w1 = .ok P w' := by
  rw [storyParams]
  simp only [drawState, Act.bind_eq_ok, Act.ofPy_eq_ok, Act.pure_eq_ok]
  constructor
  · rintro ⟨c1, w1, h1, c2, w2, h2, a, _, ⟨h3, rfl⟩, b, _, ⟨h4, rfl⟩, ps, _, ⟨h5, rfl⟩, h6⟩
    exact ⟨(a, b), w2, ps, ⟨c1, w1, h1, c2, w2, h2, a, w2, ⟨h3, rfl⟩, b, w2, ⟨h4, rfl⟩, rfl, rfl⟩, h5,
      h6⟩
  · rintro ⟨ab, w3, ps, ⟨c1, w1, h1, c2, w2, h2, a, _, ⟨h3, rfl⟩, b, _, ⟨h4, rfl⟩, rfl, rfl⟩, h5, h6⟩
    exact ⟨c1, w1, h1, c2, w2, h2, a, w2, ⟨h3, rfl⟩, b, w2, ⟨h4, rfl⟩, ps, w2, ⟨h5, rfl⟩, h6⟩

/-- the same parameters, up to the order of the states -/
def SameParams (p1 p2 : Dict Val (Dict Val StateParams)) : Prop :=
  List.Forall₂ (fun x y => x.1 = y.1 ∧ ∀ st, x.2.get? st = y.2.get? st) p1 p2

theorem sameParams_refl (p : Dict Val (Dict Val StateParams)) : SameParams p p :=
  List.forall₂_same.2 fun _ _ => ⟨rfl, fun _ => rfl⟩

theorem sameParams_trans {p1 p2 p3 : Dict Val (Dict Val StateParams)} (h : SameParams p1 p2)
    (h' : SameParams p2 p3) : SameParams p1 p3 := by
  unfold SameParams at *
  induction h generalizing p3 with
  | nil => cases h'; exact .nil
  | cons ha _ ih =>
    cases h' with
    | cons hb hr => exact .cons ⟨ha.1.trans hb.1, fun st => (ha.2 st).trans (hb.2 st)⟩ (ih hr)

theorem sameParams_zip {κ : Type} {f g : Val × Dict Val StateParams → κ → Val × Dict Val StateParams}
    {p1 p2 : Dict Val (Dict Val StateParams)} (h : SameParams p1 p2)
    (hfg : ∀ x y c, x.1 = y.1 → (∀ st, x.2.get? st = y.2.get? st) →
      (f x c).1 = (g y c).1 ∧ ∀ st, (f x c).2.get? st = (g y c).2.get? st) (l : List κ) :
    SameParams (List.zipWith f p1 l) (List.zipWith g p2 l) := by
  unfold SameParams at *
  induction h generalizing l with
  | nil => exact .nil
  | cons ha _ ih =>
    cases l with
    | nil => exact .nil
    | cons c l => exact .cons (hfg _ _ c ha.1 ha.2) (ih l)

theorem addState_same {ids : List Val} {p1 p2 q1 : Dict Val (Dict Val StateParams)} {st : Val}
    {a b : List Rat} (h : SameParams p1 p2) (h1 : Story.addState ids p1 st a b = .ok q1) :
    ∃ q2, Story.addState ids p2 st a b = .ok q2 ∧ SameParams q1 q2 := by
  rw [Story.addState] at h1 ⊢
  split at h1
  · cases h1
  · rename_i hc
    rw [if_neg hc]
    cases h1
    refine ⟨_, rfl, sameParams_zip h ?_ _⟩
    intro x y c hk hl
    refine ⟨hk, fun s => ?_⟩
    simp only [Dict.get?_set, hl]

theorem addState_swap {ids : List Val} {p q r : Dict Val (Dict Val StateParams)} {s t : Val}
    (hst : s ≠ t) {a b a' b' : List Rat} (h1 : Story.addState ids p s a b = .ok q)
    (h2 : Story.addState ids q t a' b' = .ok r) :
    ∃ q' r', Story.addState ids p t a' b' = .ok q' ∧ Story.addState ids q' s a b = .ok r' ∧
      SameParams r r' := by
  rw [Story.addState] at h1 h2
  split at h1
  · cases h1
  rename_i c1
  split at h2
  · cases h2
  rename_i c2
  cases h1
  cases h2
  refine ⟨_, _, by rw [Story.addState, if_neg c2], by rw [Story.addState, if_neg c1], ?_⟩
  have key : ∀ (p : Dict Val (Dict Val StateParams)) (l m : List (Rat × Rat)),
      l.length = m.length →
      SameParams
        (List.zipWith (fun kv ab => (kv.1, kv.2.set t ⟨ab.1, ab.2⟩))
          (List.zipWith (fun kv ab => (kv.1, kv.2.set s ⟨ab.1, ab.2⟩)) p l) m)
        (List.zipWith (fun kv ab => (kv.1, kv.2.set s ⟨ab.1, ab.2⟩))
          (List.zipWith (fun kv ab => (kv.1, kv.2.set t ⟨ab.1, ab.2⟩)) p m) l) := by
    intro p
    induction p with
    | nil => intro l m _; exact .nil
    | cons x p ih =>
      intro l m hlm
      cases l with
      | nil =>
        cases m with
        | nil => exact .nil
        | cons _ _ => cases hlm
      | cons c l =>
        cases m with
        | nil => cases hlm
        | cons d m =>
          refine .cons ⟨rfl, fun k => ?_⟩ (ih l m (by simpa using hlm))
          simp only [Dict.get?_set]
          by_cases hks : k = s
          · subst hks; simp [Ne.symm hst]
          · by_cases hkt : k = t
            · subst hkt; simp [hst]
            · simp [Ne.symm hks, Ne.symm hkt]
  push Not at c1 c2
  exact key p _ _ (by simp [c1.1, c1.2, c2.1, c2.2])

theorem storyParams_perm {ids : List Val} {size : Nat} {l1 l2 : List (Val × StateGens)}
    (hp : l1.Perm l2) : ∀ {p1 p2 P1 : Dict Val (Dict Val StateParams)} {w w' : World σ γ},
    (l1.Pairwise fun x y => ∀ j ∈ usedBy x.2, j ∉ usedBy y.2) → (l1.map Prod.fst).Nodup →
    SameParams p1 p2 → storyParams env ids size l1 p1 w = .ok P1 w' →
    ∃ P2, storyParams env ids size l2 p2 w = .ok P2 w' ∧ SameParams P1 P2 := by
  induction hp with
  | nil =>
    intro p1 p2 P1 w w' _ _ hs h
    obtain ⟨rfl, rfl⟩ := Act.pure_eq_ok.1 h
    exact ⟨p2, rfl, hs⟩
  | cons x _ ih =>
    intro p1 p2 P1 w w' hd hn hs h
    obtain ⟨st, g⟩ := x
    obtain ⟨ab, w1, ps, h1, h2, h3⟩ := storyParams_cons_ok.1 h
    obtain ⟨q, h4, h5⟩ := addState_same hs h2
    obtain ⟨P2, h6, h7⟩ := ih (List.pairwise_cons.1 hd).2 (List.nodup_cons.1 hn).2 h5 h3
    exact ⟨P2, storyParams_cons_ok.2 ⟨ab, w1, q, h1, h4, h6⟩, h7⟩
  | swap x y l =>
    intro p1 p2 P1 w w' hd hn hs h
    obtain ⟨st, g⟩ := y
    obtain ⟨st', g'⟩ := x
    obtain ⟨ab, w1, ps, h1, h2, h3⟩ := storyParams_cons_ok.1 h
    obtain ⟨cd, w2, qs, h4, h5, h6⟩ := storyParams_cons_ok.1 h3
    have hst : st ≠ st' := by
      have := (List.nodup_cons.1 hn).1
      intro he
      exact this (by simp [he])
    have hdis := (List.pairwise_cons.1 hd).1 (st', g') List.mem_cons_self
    obtain ⟨w1', e1, e2⟩ := (local_drawState size g).swap (local_drawState size g') hdis h1 h4
    obtain ⟨q', r', e3, e4, e5⟩ := addState_swap hst h2 h5
    obtain ⟨q2, f1, f2⟩ := addState_same hs e3
    obtain ⟨r2, f3, f4⟩ := addState_same f2 e4
    have hsame := sameParams_trans e5 f4
    -- the rest of the list, from parameters in another order
    have hrest : ∀ {l : List (Val × StateGens)} {p1 p2 P1 : Dict Val (Dict Val StateParams)}
        {w w' : World σ γ}, SameParams p1 p2 → storyParams env ids size l p1 w = .ok P1 w' →
        ∃ P2, storyParams env ids size l p2 w = .ok P2 w' ∧ SameParams P1 P2 := by
      intro l
      induction l with
      | nil =>
        intro p1 p2 P1 w w' hs h
        obtain ⟨rfl, rfl⟩ := Act.pure_eq_ok.1 h
        exact ⟨p2, rfl, hs⟩
      | cons x l ih =>
        intro p1 p2 P1 w w' hs h
        obtain ⟨st, g⟩ := x
        obtain ⟨ab, w1, ps, h1, h2, h3⟩ := storyParams_cons_ok.1 h
        obtain ⟨q, h4, h5⟩ := addState_same hs h2
        obtain ⟨P2, h6, h7⟩ := ih h5 h3
        exact ⟨P2, storyParams_cons_ok.2 ⟨ab, w1, q, h1, h4, h6⟩, h7⟩
    obtain ⟨P2, g1, g2⟩ := hrest hsame h6
    exact ⟨P2, storyParams_cons_ok.2 ⟨cd, w1', q2, e1, f1,
      storyParams_cons_ok.2 ⟨ab, w2, r2, e2, f3, g1⟩⟩, g2⟩
  | trans hp1 _ ih1 ih2 =>
    intro p1 p2 P1 w w' hd hn hs h
    obtain ⟨P2, h1, h2⟩ := ih1 hd hn (sameParams_refl p1) h
    have hd' := (hp1.pairwise_iff (fun {x y} (hxy : ∀ j ∈ usedBy x.2, j ∉ usedBy y.2) j hj hj' =>
      hxy j hj' hj)).1 hd
    obtain ⟨P3, h3, h4⟩ := ih2 hd' ((hp1.map _).nodup_iff.1 hn) hs h1
    exact ⟨P3, h3, sameParams_trans h2 h4⟩

/-! ### New stories -/

variable {env1 env2 : Env σ γ}

theorem same_storyParams (he : SameButSets env1 env2) (ids : List Val) (size : Nat)
    (l : List (Val × StateGens)) : ∀ p,
    SameRun SameWorld Eq (storyParams env1 ids size l p) (storyParams env2 ids size l p) := by
  induction l with
  | nil => exact fun p => SameRun.pure rfl
  | cons x l ih =>
    intro p
    obtain ⟨st, g⟩ := x
    refine (same_call he g.activity _).bind ?_
    rintro a _ rfl
    refine (same_call he g.back _).bind ?_
    rintro b _ rfl
    refine (SameRun.ofPy_eq rfl).bind ?_
    rintro a _ rfl
    refine (SameRun.ofPy_eq rfl).bind ?_
    rintro b _ rfl
    refine (SameRun.ofPy_eq rfl).bind ?_
    rintro p _ rfl
    exact ih p

theorem sameRun_ok {W α : Type} {S : W → W → Prop} {P : α → α → Prop} {x y : Act W α}
    (h : SameRun S P x y) {w1 w2 v1 : W} {a : α} (hs : S w1 w2) (h1 : x w1 = .ok a v1) :
    ∃ b v2, y w2 = .ok b v2 ∧ P a b ∧ S v1 v2 := by
  have := h w1 w2 hs
  rw [h1] at this
  cases hy : y w2 with
  | ok b v2 => rw [hy] at this; exact ⟨b, v2, rfl, this⟩
  | error e v2 => rw [hy] at this; exact this.elim

theorem sameParams_members {p1 p2 : Dict Val (Dict Val StateParams)} (h : SameParams p1 p2) :
    p1.map Prod.fst = p2.map Prod.fst := by
  unfold SameParams at h
  induction h with
  | nil => rfl
  | cons ha _ ih => rw [List.map_cons, List.map_cons, ha.1, ih]

theorem sameParams_get {p1 p2 : Dict Val (Dict Val StateParams)} (h : SameParams p1 p2)
    (id st : Val) : (p1.get? id).bind (·.get? st) = (p2.get? id).bind (·.get? st) := by
  unfold SameParams at h
  induction h with
  | nil => rfl
  | @cons x y _ _ ha _ ih =>
    obtain ⟨i, d⟩ := x
    obtain ⟨i', d'⟩ := y
    obtain ⟨hi, hd⟩ := ha
    simp only at hi hd
    subst hi
    rw [Dict.get?_cons, Dict.get?_cons]
    split
    · exact hd st
    · exact ih

/-- the states of a story in two orders -/
theorem states_perm (so1 so2 : SetOrder Val) {cfg : StoryConfig} {s1 : Dict Val StateGens}
    (h1 : merge_2_dicts so1 (some [(defaultState, ⟨cfg.activity, .constant (.num 1)⟩)]) cfg.states =
      .ok s1) (hn : ((cfg.states.getD []).map Prod.fst).Nodup) :
    ∃ s2, merge_2_dicts so2 (some [(defaultState, ⟨cfg.activity, .constant (.num 1)⟩)]) cfg.states =
      .ok s2 ∧ s1.Perm s2 ∧
      s1.Perm ((defaultState, ⟨cfg.activity, .constant (.num 1)⟩) :: cfg.states.getD []) := by
  cases hc : cfg.states with
  | none =>
    rw [hc] at h1
    cases h1
    exact ⟨_, rfl, .refl _, .refl _⟩
  | some d =>
    rw [hc] at h1 hn
    simp only [Option.getD_some] at hn ⊢
    simp only [merge_2_dicts] at h1 ⊢
    have hd : defaultState ∉ Dict.keys d := by
      intro hk
      rw [merge2_noMerge so1 _ _ ⟨defaultState, by simp, hk⟩] at h1
      cases h1
    have hdis : ∀ k, k ∈ Dict.keys [(defaultState, (⟨cfg.activity, .constant (.num 1)⟩ : StateGens))] →
        k ∉ Dict.keys d := by
      intro k hk
      simp only [Dict.keys, List.map_cons, List.map_nil, List.mem_singleton] at hk
      subst hk
      exact hd
    rw [merge2_disjoint _ _ _ _ (fun a _ => a) hdis] at h1 ⊢
    obtain ⟨a, e1, e2, e3⟩ := merge2_total so1
      [(defaultState, (⟨cfg.activity, .constant (.num 1)⟩ : StateGens))] d (fun a _ => a)
    obtain ⟨b, g1, g2, g3⟩ := merge2_total so2
      [(defaultState, (⟨cfg.activity, .constant (.num 1)⟩ : StateGens))] d (fun a _ => a)
    rw [e1] at h1
    obtain rfl : a = s1 := by injection h1
    have wf1 : Dict.WF a := by rw [Dict.WF, e2]; exact so1.nodup _
    have wf2 : Dict.WF b := by rw [Dict.WF, g2]; exact so2.nodup _
    refine ⟨b, g1, Dict.perm_of_get? wf1 wf2 fun k => by rw [e3, g3], ?_⟩
    refine Dict.perm_of_get? wf1 ?_ fun k => ?_
    · exact List.nodup_cons.2 ⟨hd, hn⟩
    · rw [e3, Dict.get?_cons, Dict.get?_cons]
      by_cases hk : defaultState = k
      · subst hk
        simp [Dict.get?_eq_none_iff.2 hd, Spec.unionAt]
      · simp only [hk, if_false, Dict.get?_nil]
        cases Dict.get? d k <;> rfl

theorem same_newStory (he : SameButSets env1 env2) {cfg : StoryConfig} {p : Population}
    (hg : OwnGenerators cfg) (hn : ((cfg.states.getD []).map Prod.fst).Nodup)
    {w1 w2 v1 : World σ γ} {s : Story σ} (hs : SameWorld w1 w2)
    (h : newStory env1 cfg p w1 = .ok s v1) :
    ∃ t v2, newStory env2 cfg p w2 = .ok t v2 ∧ SameStory s t ∧ SameWorld v1 v2 := by
  rw [newStory] at h
  simp only [Act.bind_eq_ok, Act.ofPy_eq_ok] at h
  obtain ⟨l1, _, ⟨h1, rfl⟩, P1, u1, h2, h3⟩ := h
  obtain ⟨l2, e1, e2, e3⟩ := states_perm env1.orders.set env2.orders.set h1 hn
  have hdis := (e3.pairwise_iff
    (R := fun x y : Val × StateGens => ∀ j ∈ usedBy x.2, j ∉ usedBy y.2)
    (fun {x y} (hxy : ∀ j ∈ usedBy x.2, j ∉ usedBy y.2) j hj hj' => hxy j hj' hj)).2 hg
  have hnod : (l1.map Prod.fst).Nodup := by
    have hk : defaultState ∉ (cfg.states.getD []).map Prod.fst := by
      cases hc : cfg.states with
      | none => simp
      | some d =>
        intro hk
        have hk : defaultState ∈ Dict.keys d := hk
        rw [hc] at h1
        rw [merge_2_dicts, merge2_noMerge _ _ _ ⟨defaultState, by simp, hk⟩] at h1
        cases h1
    exact ((e3.map Prod.fst).nodup_iff).2 (List.nodup_cons.2 ⟨hk, hn⟩)
  obtain ⟨P2, f1, f2⟩ := storyParams_perm e2 hdis hnod (sameParams_refl _) h2
  obtain ⟨P3, u2, g1, g2, g3⟩ := sameRun_ok (same_storyParams he _ _ _ _) hs f1
  subst g2
  have hrng := he.rng
  have hs0 : SameStory
      { name := cfg.name, population := cfg.population, idField := cfg.idField
        timerGen := cfg.timerGen, autoReset := cfg.autoReset, judge := env1.R.seed 1234
        states := l1.keys, params := P1
        timer := p.ids.map fun i => ⟨i, defaultState, some (-1)⟩
        forced := [] }
      { name := cfg.name, population := cfg.population, idField := cfg.idField
        timerGen := cfg.timerGen, autoReset := cfg.autoReset, judge := env2.R.seed 1234
        states := l2.keys, params := P2
        timer := p.ids.map fun i => ⟨i, defaultState, some (-1)⟩
        forced := [] } :=
    ⟨rfl, rfl, rfl, rfl, rfl, by rw [hrng], rfl, rfl, e2.map _, sameParams_members f2,
      sameParams_get f2⟩
  have hreset : ∀ {s1 s2 : Story σ}, SameStory s1 s2 →
      SameRun SameWorld SameStory (initialReset env1 s1) (initialReset env2 s2) := by
    intro s1 s2 h12
    rw [initialReset, initialReset, h12.autoReset]
    split
    · exact same_resetStory he h12 _
    · exact SameRun.pure h12
  obtain ⟨t, v2, k1, k2, k3⟩ := sameRun_ok (hreset hs0) g3 h3
  refine ⟨t, v2, ?_, k2, k3⟩
  rw [newStory, Act.bind_ok (Act.ofPy_ok e1 w2), Act.bind_ok g1]
  exact k1

theorem same_findStory {w1 w2 : World σ γ} (hs : SameWorld w1 w2) (name : String) :
    w1.findStory name = w2.findStory name := by
  rw [findStory, findStory]
  have := hs.stories
  generalize w1.stories = a at this
  generalize w2.stories = b at this
  induction this with
  | nil => rfl
  | cons h _ ih => rw [List.findIdx?_cons, List.findIdx?_cons, h.name, ih]

theorem same_createStory (he : SameButSets env1 env2) {cfg : StoryConfig}
    (hg : OwnGenerators cfg) (hn : ((cfg.states.getD []).map Prod.fst).Nodup)
    {w1 w2 v1 : World σ γ} {n : Nat} (hs : SameWorld w1 w2)
    (h : createStory env1 cfg w1 = .ok n v1) :
    ∃ v2, createStory env2 cfg w2 = .ok n v2 ∧ SameWorld v1 v2 := by
  obtain ⟨h1, p, s, u1, h2, h3, rfl, rfl⟩ := createStory_ok h
  obtain ⟨t, u2, e1, e2, e3⟩ := same_newStory he hg hn hs h3
  rw [same_findStory hs] at h1
  rw [hs.pops] at h2
  have hap : ∀ {l m : List (Story σ)} {a b : Story σ}, List.Forall₂ SameStory l m → SameStory a b →
      List.Forall₂ SameStory (l ++ [a]) (m ++ [b]) := by
    intro l m a b hlm hab
    induction hlm with
    | nil => exact .cons hab .nil
    | cons hx _ ih => exact .cons hx ih
  refine ⟨{ u2 with stories := u2.stories ++ [t] }, ?_, ?_⟩
  · rw [createStory, Act.bind_ok (x := (get : Act (World σ γ) _)) (w := w2) (a := w2) (w' := w2) rfl]
    simp only [h1]
    rw [Act.bind_ok (getPop_eq_ok.2 ⟨h2, rfl⟩), Act.bind_ok e1, e3.stories.length_eq]
    rfl
  · exact ⟨e3.clock, e3.seeder, e3.pops, hap e3.stories e2, e3.rels⟩

end World

theorem sameWorld_symm {w1 w2 : World σ γ} (h : SameWorld w1 w2) : SameWorld w2 w1 := by
  refine ⟨h.clock.symm, h.seeder.symm, h.pops.symm, ?_, ?_⟩
  · exact h.stories.flip.imp fun _ _ k => ⟨k.name.symm, k.population.symm, k.idField.symm,
      k.timerGen.symm, k.autoReset.symm, k.judge.symm, k.timer.symm, k.forced.symm, k.states.symm,
      k.members.symm, fun id st => (k.params id st).symm⟩
  · exact h.rels.flip.imp fun _ _ k => ⟨k.seed.symm, k.state.symm, fun f => (k.get f).symm, k.distinct2,
      k.distinct1, fun f rs hf => k.aligned f rs ((k.get f).trans hf)⟩

end Trumania
