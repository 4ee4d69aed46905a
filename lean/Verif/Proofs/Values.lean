import Verif.Spec.Values
import Verif.Props.Fields
import Verif.Props.GeneratorSizes
import Verif.Props.Clock
import Verif.Props.Batches
import Verif.Props.Journal

/-! what the generators give, through runs -/

namespace Trumania
open Spec World

namespace AnyGen
variable {σ : Type} {R : Rng σ}

theorem choice_gives {s s' : σ} {a : List Val} {p : Option (List Rat)} {n : Nat} {v : List Val}
    (h : choiceGenerate R s a p n = .ok (v, s')) : ∀ c ∈ v, gives (.choice a p s) (.scalar c) := by
  obtain ⟨i, h1, h2⟩ := choiceGenerate_ok.1 h
  rw [fancy, mapM_ok_iff] at h2
  intro c hc
  obtain ⟨k, hk, rfl⟩ := List.mem_iff_getElem.1 hc
  have hk' : k < i.length := by rw [h2.length_eq]; exact hk
  have e := h2.get hk' hk
  simp only [List.get_eq_getElem] at e
  split at e
  · rename_i hx
    cases e
    refine ⟨i[k], _, hx, rfl, ?_⟩
    rintro ps rfl
    exact (R.choiceP_ok h1).2.2.2 _ (List.getElem_mem hk')
  · cases e

theorem msisdn_gives {s : σ} {g g' : MsisdnGen} {n : Nat} {v : List String} {seed : Int}
    (h : MsisdnGen.generate R s g n = .ok (v, g')) :
    (∀ c ∈ v, gives (σ := σ) (.msisdn g seed) (.str c)) ∧
      ∀ c, gives (σ := σ) (.msisdn g' seed) c → gives (σ := σ) (.msisdn g seed) c := by
  simp only [MsisdnGen.generate, bind_eq_ok] at h
  obtain ⟨⟨idx, s'⟩, hc, ms, hm, rest, hr, hfin⟩ := h
  cases hfin
  rw [mapM_ok_iff] at hm
  constructor
  · intro c hcm
    obtain ⟨k, hk, rfl⟩ := List.mem_iff_getElem.1 hcm
    have hk' : k < idx.length := by rw [hm.length_eq]; exact hk
    have e := hm.get hk' hk
    rw [bind_eq_ok] at e
    obtain ⟨x, e1, e2⟩ := e
    rw [MsisdnGen.entry] at e1
    split at e1
    · rename_i hy
      cases e1
      rw [MsisdnGen.render] at e2
      split at e2
      · rename_i p hp
        refine ⟨x, List.mem_of_getElem? hy, p, hp, ?_⟩
        simp only [List.get_eq_getElem, Except.ok.injEq] at e2
        rw [e2]
      · cases e2
    · cases e1
  · rintro c ⟨e, he, p, hp, rfl⟩
    refine ⟨e, ?_, p, hp, rfl⟩
    rw [npDelete] at hr
    split at hr
    · cases hr
      simp only [List.mem_map, List.mem_filter] at he
      obtain ⟨x, ⟨hx, -⟩, rfl⟩ := he
      exact List.fst_mem_of_mem_zipIdx hx
    · cases hr

/-- the values given, and that nothing more can be given later -/
theorem generate_gives {g g' : AnyGen σ} {n : Rat} {v : List Cell}
    (h : generate R g n = .ok (v, g')) : (∀ c ∈ v, gives g c) ∧ ∀ c, gives g' c → gives g c := by
  cases g with
  | constant c =>
    rw [generate] at h
    split at h
    · cases h
      refine ⟨fun x hx => ?_, fun _ h => h⟩
      rw [constantGenerate] at hx
      exact (List.mem_replicate.1 hx).2
    · cases h
  | fixed l =>
    rw [generate] at h
    split at h
    · rw [bind_eq_ok] at h
      obtain ⟨w, h1, h2⟩ := h
      cases h2
      rw [fixedValuesGenerate] at h1
      split at h1
      · cases h1
        exact ⟨fun _ h => h, fun _ h => h⟩
      · cases h1
    · cases h
  | seq g =>
    rw [generate] at h
    cases h
    refine ⟨fun c hc => ?_, fun _ h => h⟩
    simp only [SeqGen.generate, build_ids, List.mem_map] at hc
    obtain ⟨_, ⟨k, -, rfl⟩, rfl⟩ := hc
    exact ⟨k, rfl⟩
  | uniform lo hi s =>
    rw [generate] at h
    split at h
    · cases h
      refine ⟨fun c hc => ?_, fun _ h => h⟩
      obtain ⟨u, hu, rfl⟩ := List.mem_map.1 hc
      obtain ⟨h1, h2⟩ := R.uniform_range _ _ u hu
      exact ⟨u, h1, h2, rfl⟩
    · cases h
  | choice a p s =>
    rw [generate] at h
    split at h
    · rw [bind_eq_ok] at h
      obtain ⟨⟨v', s'⟩, h1, h2⟩ := h
      cases h2
      refine ⟨fun c hc => ?_, fun _ h => h⟩
      obtain ⟨x, hx, rfl⟩ := List.mem_map.1 hc
      exact choice_gives h1 x hx
    · cases h
  | pareto xmin f s =>
    rw [generate] at h
    split at h
    · cases h
      cases f
      · refine ⟨fun c hc => ?_, fun _ h => h⟩
        simp only [paretoGenerate, Bool.false_eq_true, if_false, List.mem_map] at hc
        obtain ⟨_, ⟨x, hx, rfl⟩, rfl⟩ := hc
        exact ⟨x + 1, by linarith [R.pareto_range _ _ x hx], rfl⟩
      · refine ⟨fun c hc => ?_, fun _ h => h⟩
        simp only [paretoGenerate, if_true, List.mem_map] at hc
        obtain ⟨_, ⟨_, ⟨x, hx, rfl⟩, rfl⟩, rfl⟩ := hc
        exact ⟨x + 1, by linarith [R.pareto_range _ _ x hx], rfl⟩
    · cases h
  | msisdn g seed =>
    rw [generate] at h
    split at h
    · rw [bind_eq_ok] at h
      obtain ⟨⟨v', s'⟩, h1, h2⟩ := h
      cases h2
      obtain ⟨e1, e2⟩ := msisdn_gives (seed := seed) h1
      refine ⟨fun c hc => ?_, e2⟩
      obtain ⟨x, hx, rfl⟩ := List.mem_map.1 hc
      exact e1 x hx
    · cases h
  | cyclic t => rw [generate] at h; cases h
  | trigger m s => rw [generate] at h; cases h
  | bulk g => rw [generate] at h; cases h

theorem bulkCells_gives {g g' : AnyGen σ} {obs v : List Cell} (h : bulkCells R g obs = .ok (v, g')) :
    (∀ c ∈ v, gives (.bulk g) c) ∧ ∀ c, gives g' c → gives g c := by
  induction obs generalizing g v with
  | nil =>
    rw [bulkCells] at h
    cases h
    exact ⟨by simp, fun _ h => h⟩
  | cons c cs ih =>
    rw [bulkCells, bind_eq_ok] at h
    obtain ⟨n, -, h⟩ := h
    rw [bind_eq_ok] at h
    obtain ⟨⟨w, ga⟩, h2, h⟩ := h
    rw [bind_eq_ok] at h
    obtain ⟨vals, h3, h⟩ := h
    rw [bind_eq_ok] at h
    obtain ⟨⟨rest, gb⟩, h4, h⟩ := h
    cases h
    obtain ⟨a1, a2⟩ := generate_gives h2
    obtain ⟨b1, b2⟩ := ih h4
    refine ⟨fun x hx => ?_, fun x hx => a2 x (b2 x hx)⟩
    rcases List.mem_cons.1 hx with rfl | hx
    · refine ⟨vals, rfl, fun y hy => a1 _ ?_⟩
      rw [mapM_ok_iff] at h3
      obtain ⟨k, hk, rfl⟩ := List.mem_iff_getElem.1 hy
      have hk' : k < w.length := by rw [h3.length_eq]; exact hk
      have e := h3.get hk' hk
      simp only [List.get_eq_getElem] at e
      cases hw : w[k] with
      | scalar z =>
        rw [hw] at e
        cases e
        rw [← hw]
        exact List.getElem_mem hk'
      | list l => rw [hw] at e; cases e
    · obtain ⟨l, rfl, hl⟩ := b1 x hx
      exact ⟨l, rfl, fun y hy => a2 _ (hl y hy)⟩

theorem lowTimer_nat (t : CyclicTimer σ) {u a : Rat} (hu : 0 ≤ u) (ha : 0 < a) :
    ∃ n : Nat, t.lowTimer u a = n := by
  have h0 : (0 : Rat) ≤ 2 * u / a := div_nonneg (by linarith) ha.le
  have h1 : 0 ≤ (2 * u / a).floor := Int.floor_nonneg.2 h0
  obtain ⟨n, hn⟩ := Int.eq_ofNat_of_zero_le h1
  refine ⟨searchLeft t.cdf (2 * u / a - ((n : Int) : Rat)) + t.nBins * n, ?_⟩
  simp only [CyclicTimer.lowTimer, hn]
  push_cast
  rfl

theorem observe_gives {g g' : AnyGen σ} {obs v : List Cell} (h : observe R g obs = .ok (v, g')) :
    (∀ c ∈ v, gives g c) ∧ ∀ c, gives g' c → gives g c := by
  cases g with
  | constant c =>
    rw [observe] at h
    cases h
    refine ⟨fun x hx => ?_, fun _ h => h⟩
    obtain ⟨_, -, rfl⟩ := List.mem_map.1 hx
    rfl
  | cyclic t =>
    rw [observe, bind_eq_ok] at h
    obtain ⟨acts, -, h2⟩ := h
    cases h2
    refine ⟨fun x hx => ?_, fun _ h => h⟩
    obtain ⟨o, ho, rfl⟩ := List.mem_map.1 hx
    obtain ⟨k, hk, rfl⟩ := List.mem_iff_getElem.1 ho
    have hs := generate_spec R t acts
    have hk' : k < acts.length := by rw [hs.length_eq]; exact hk
    have e := hs.get hk' hk
    simp only [List.get_eq_getElem] at e
    generalize (t.generate R acts).1[k] = r at e
    rcases e with ⟨ha, -, u, hu, -, rfl⟩ | ⟨-, b, -, -, rfl⟩ | ⟨-, rfl⟩
    · obtain ⟨n, hn⟩ := lowTimer_nat t hu ha
      rw [hn, correct_natCast]
      exact .inr ⟨_, rfl⟩
    · rw [CyclicTimer.highTimer, correct_natCast]
      exact .inr ⟨_, rfl⟩
    · exact .inl rfl
  | trigger m s =>
    rw [observe, bind_eq_ok] at h
    obtain ⟨vals, h1, h⟩ := h
    rw [bind_eq_ok] at h
    obtain ⟨⟨bs, s'⟩, h2, h3⟩ := h
    cases h3
    refine ⟨fun x hx => ?_, fun _ h => h⟩
    obtain ⟨b, -, rfl⟩ := List.mem_map.1 hx
    exact ⟨b, rfl⟩
  | bulk g =>
    rw [observe, bind_eq_ok] at h
    obtain ⟨⟨v', g1⟩, h1, h2⟩ := h
    cases h2
    obtain ⟨e1, e2⟩ := bulkCells_gives h1
    refine ⟨e1, ?_⟩
    rintro c ⟨l, rfl, hl⟩
    exact ⟨l, rfl, fun x hx => e2 _ (hl x hx)⟩
  | fixed l => simp [observe] at h
  | seq g => simp [observe] at h
  | uniform lo hi s => simp [observe] at h
  | choice a p s => simp [observe] at h
  | pareto x f s => simp [observe] at h
  | msisdn g seed => simp [observe] at h

theorem tick_gives (g : AnyGen σ) (c : Cell) : gives (tick g) c ↔ gives g c := by
  cases g <;> rfl

end AnyGen

/-! ### In a circus -/

section
variable {σ : Type} {env : Env σ (AnyGen σ)}

/-- generators that give nothing more than those of before -/
def Later (gens0 gens : List (AnyGen σ)) : Prop :=
  List.Forall₂ (fun g g0 => ∀ c, gives g c → gives g0 c) gens gens0

theorem later_refl (gens : List (AnyGen σ)) : Later gens gens := forall₂_refl (fun _ _ h => h) _

theorem later_get {gens0 gens : List (AnyGen σ)} (h : Later gens0 gens) {i : Nat} {g : AnyGen σ}
    (hg : gens[i]? = some g) : ∃ g0, gens0[i]? = some g0 ∧ ∀ c, gives g c → gives g0 c := by
  obtain ⟨hi, rfl⟩ := List.getElem?_eq_some_iff.1 hg
  have hi' : i < gens0.length := by rw [← h.length_eq]; exact hi
  exact ⟨gens0[i], List.getElem?_eq_getElem hi', h.get hi hi'⟩

theorem later_set {gens0 gens : List (AnyGen σ)} (h : Later gens0 gens) {i : Nat} {g g' : AnyGen σ}
    (hg : gens[i]? = some g) (hs : ∀ c, gives g' c → gives g c) : Later gens0 (gens.set i g') := by
  induction h generalizing i with
  | nil => simp at hg
  | @cons a b l l0 hab hl ih =>
    cases i with
    | zero =>
      simp only [List.getElem?_cons_zero, Option.some.injEq] at hg
      subst hg
      exact .cons (fun c hc => hab c (hs c hc)) hl
    | succ i => exact .cons hab (ih hg)

theorem later_inv (hsem : env.sem = AnyGen.sem env.R) (gens0 : List (AnyGen σ)) :
    GenInv env (Later gens0) := by
  refine ⟨⟨?_, ?_⟩, ?_⟩
  · intro gens j g n v g' hG hg h
    rw [hsem] at h
    exact later_set hG hg (AnyGen.generate_gives (R := env.R) h).2
  · intro gens j g n v g' hG hg h
    rw [hsem] at h
    exact later_set hG hg (AnyGen.observe_gives (R := env.R) h).2
  · intro gens hG
    rw [hsem]
    refine List.forall₂_map_left_iff.2 (List.Forall₂.imp ?_ hG)
    intro a b hab c hc
    exact hab c ((AnyGen.tick_gives a c).1 hc)

theorem bulkLoop_gives {gens0 : List (AnyGen σ)} {f : Rat → Act (World σ (AnyGen σ)) (List Cell)}
    {V : Cell → Prop}
    (hf : ∀ n w v w', Later gens0 w.gens → f n w = .ok v w' → Later gens0 w'.gens ∧ ∀ c ∈ v, V c)
    {obs v : List Cell} {w w' : World σ (AnyGen σ)} (hw : Later gens0 w.gens)
    (h : bulkLoop f obs w = .ok v w') :
    ∀ c ∈ v, ∃ l : List Val, c = .list l ∧ ∀ x ∈ l, V (.scalar x) := by
  induction obs generalizing w w' v with
  | nil =>
    obtain ⟨rfl, -⟩ := Act.pure_eq_ok.1 h
    simp
  | cons c cs ih =>
    rw [bulkLoop] at h
    obtain ⟨n, w1, h1, h⟩ := Act.bind_eq_ok.1 h
    obtain ⟨-, rfl⟩ := Act.ofPy_eq_ok.1 h1
    obtain ⟨u, w2, h2, h⟩ := Act.bind_eq_ok.1 h
    obtain ⟨vals, w3, h3, h⟩ := Act.bind_eq_ok.1 h
    obtain ⟨h3a, rfl⟩ := Act.ofPy_eq_ok.1 h3
    obtain ⟨rest, w4, h4, h⟩ := Act.bind_eq_ok.1 h
    obtain ⟨rfl, rfl⟩ := Act.pure_eq_ok.1 h
    obtain ⟨e1, e2⟩ := hf n _ _ _ hw h2
    intro x hx
    rcases List.mem_cons.1 hx with rfl | hx
    · refine ⟨vals, rfl, fun y hy => e2 _ ?_⟩
      rw [mapM_ok_iff] at h3a
      obtain ⟨k, hk, rfl⟩ := List.mem_iff_getElem.1 hy
      have hk' : k < u.length := by rw [h3a.length_eq]; exact hk
      have e := h3a.get hk' hk
      simp only [List.get_eq_getElem] at e
      cases hu : u[k] with
      | scalar z =>
        rw [hu] at e
        cases e
        rw [← hu]
        exact List.getElem_mem hk'
      | list l => rw [hu] at e; cases e
    · exact ih e1 h4 x hx

theorem call_gives (hsem : env.sem = AnyGen.sem env.R) {gens0 : List (AnyGen σ)} {g : GenRef}
    {q : Request} {w w' : World σ (AnyGen σ)} {v : List Cell} (hw : Later gens0 w.gens)
    (h : call env g q w = .ok v w') : ∀ c ∈ v, givesRef gens0 g c := by
  have hI := later_inv hsem gens0
  induction g generalizing q w w' v with
  | constant a =>
    cases q with
    | size n =>
      obtain ⟨rfl, -⟩ := Act.pure_eq_ok.1 h
      exact fun c hc => (List.mem_replicate.1 hc).2
    | series obs =>
      obtain ⟨rfl, -⟩ := Act.pure_eq_ok.1 h
      intro c hc
      obtain ⟨_, -, rfl⟩ := List.mem_map.1 hc
      rfl
    | samples array obs => exact absurd h throw_ne_ok
  | ref i =>
    have key : ∀ {g g' : AnyGen σ}, w.gens[i]? = some g →
        ((∃ n, AnyGen.generate env.R g n = .ok (v, g')) ∨ ∃ obs, AnyGen.observe env.R g obs = .ok (v, g')) →
        ∀ c ∈ v, givesRef gens0 (.ref i) c := by
      intro g g' hg ho c hc
      obtain ⟨g0, h1, h2⟩ := later_get hw hg
      refine ⟨g0, h1, h2 c ?_⟩
      rcases ho with ⟨n, ho⟩ | ⟨obs, ho⟩
      · exact (AnyGen.generate_gives ho).1 c hc
      · exact (AnyGen.observe_gives ho).1 c hc
    cases q with
    | size n =>
      simp only [call, Act.bind_eq_ok, getGen_eq_ok, Act.ofPy_eq_ok, setGen_eq_ok, Act.pure_eq_ok] at h
      obtain ⟨a, w1, ⟨h1, rfl⟩, ⟨v', g'⟩, w2, ⟨h2, rfl⟩, u, w3, -, rfl, -⟩ := h
      rw [hsem] at h2
      exact key h1 (.inl ⟨n, h2⟩)
    | series obs =>
      simp only [call, Act.bind_eq_ok, getGen_eq_ok, Act.ofPy_eq_ok, setGen_eq_ok, Act.pure_eq_ok] at h
      obtain ⟨a, w1, ⟨h1, rfl⟩, ⟨v', g'⟩, w2, ⟨h2, rfl⟩, u, w3, -, rfl, -⟩ := h
      rw [hsem] at h2
      exact key h1 (.inr ⟨obs, h2⟩)
    | samples array obs =>
      simp only [call, Act.bind_eq_ok, getGen_eq_ok, Act.ofPy_eq_ok, setGen_eq_ok, Act.pure_eq_ok] at h
      obtain ⟨a, w1, ⟨h1, rfl⟩, _, _, ⟨-, rfl⟩, ⟨v', g'⟩, w2, ⟨h2, rfl⟩, u, w3, -, rfl, -⟩ := h
      rw [hsem] at h2
      exact key h1 (.inr ⟨obs, h2⟩)
  | mapped g f ih =>
    cases q with
    | size n =>
      rw [call] at h
      obtain ⟨u, w1, h1, h2⟩ := Act.bind_eq_ok.1 h
      obtain ⟨h2, -⟩ := Act.ofPy_eq_ok.1 h2
      intro c hc
      rw [mapM_ok_iff] at h2
      obtain ⟨k, hk, rfl⟩ := List.mem_iff_getElem.1 hc
      have hk' : k < u.length := by rw [h2.length_eq]; exact hk
      exact ⟨u[k], ih hw h1 _ (List.getElem_mem hk'), h2.get hk' hk⟩
    | series obs => exact absurd h throw_ne_ok
    | samples array obs => exact absurd h throw_ne_ok
  | mappedVect g f ih =>
    cases q with
    | size n =>
      rw [call] at h
      obtain ⟨u, w1, h1, h2⟩ := Act.bind_eq_ok.1 h
      obtain ⟨h2, -⟩ := Act.ofPy_eq_ok.1 h2
      exact fun c hc => ⟨u, v, h2, hc⟩
    | series obs => exact absurd h throw_ne_ok
    | samples array obs => exact absurd h throw_ne_ok
  | flatmapped g dep ihg ihd =>
    cases q with
    | size n =>
      rw [call] at h
      obtain ⟨u, w1, h1, h2⟩ := Act.bind_eq_ok.1 h
      obtain ⟨b, w2, h3, h4⟩ := Act.bind_eq_ok.1 h2
      rw [isArray_eq_ok h3] at h4
      exact ihd (call_gens hI.toGenKept hw h1) h4
    | series obs => exact absurd h throw_ne_ok
    | samples array obs => exact absurd h throw_ne_ok
  | bulk g ih =>
    have hf : ∀ (n : Rat) (w : World σ (AnyGen σ)) v w', Later gens0 w.gens →
        call env g (.size n) w = .ok v w' → Later gens0 w'.gens ∧ ∀ c ∈ v, givesRef gens0 g c :=
      fun n w v w' hw h => ⟨call_gens hI.toGenKept hw h, ih hw h⟩
    cases q with
    | size n => exact absurd h throw_ne_ok
    | series obs => exact bulkLoop_gives hf hw h
    | samples array obs => exact bulkLoop_gives hf hw h

end
end Trumania
