import Verif.Proofs.Msisdn

/-!
# Property C07 (MSISDN generator)
-/

namespace Trumania

open MsisdnGen

/-- **C07** over any history of successful calls, no number is ever returned twice, every number is
well formed, and each call returns the requested amount. Any random state may be used at each call
(the code re-creates its random generator from the seed, or from nothing, at each call). -/
theorem C07_msisdn_unique {σ : Type} (R : Rng σ) (cc : String) (pref : List String) (len : Nat)
    (hp : pref.Nodup) (calls : List (σ × Nat)) (vs : List (List String)) (g : MsisdnGen)
    (h : (MsisdnGen.new cc pref len).generates R calls = .ok (vs, g)) :
    vs.flatten.Nodup ∧ (∀ s ∈ vs.flatten, WellFormed cc pref len s) ∧
      vs.map List.length = calls.map Prod.snd := by
  have hinv := inv_new cc pref len
  obtain ⟨es, he, hl, hperm, -⟩ := generates_ok hinv h
  have hn := (List.nodup_append.1 (hperm.nodup_iff.2 hinv.nodup)).1
  have hr : ∀ e ∈ es, e.1 < 10 ^ len - 1 ∧ e.2 < pref.length := fun e hm =>
    hinv.range e (hperm.mem_iff.1 (List.mem_append_left _ hm))
  refine ⟨?_, ?_, hl⟩
  · rw [he]
    exact hn.map_on (fun a ha b hb hab => num_injective hinv hp (hr a ha) (hr b hb) hab)
  · intro s hs
    rw [he, List.mem_map] at hs
    obtain ⟨e, hm, rfl⟩ := hs
    exact num_wf hinv (hr e hm)

/-- **C07** capacity: after a history of calls that returned `k` numbers in total, a call for `n`
numbers succeeds if `k + n <= len(prefix_list) * (10 ** length - 1)`, and raises `ValueError`
otherwise. -/
theorem C07_msisdn_capacity {σ : Type} (R : Rng σ) (cc : String) (pref : List String) (len : Nat)
    (calls : List (σ × Nat)) (vs : List (List String)) (g : MsisdnGen) (s : σ) (n : Nat)
    (h : (MsisdnGen.new cc pref len).generates R calls = .ok (vs, g)) :
    (vs.flatten.length + n ≤ pref.length * (10 ^ len - 1) → ∃ r, g.generate R s n = .ok r) ∧
    (pref.length * (10 ^ len - 1) < vs.flatten.length + n →
      g.generate R s n = .error .valueError) := by
  have hinv := inv_new cc pref len
  obtain ⟨es, he, hl, hperm, hi⟩ := generates_ok hinv h
  have hcap := hperm.length_eq
  rw [List.length_append, available_length_new] at hcap
  have hes : es.length = vs.flatten.length := by rw [he, List.length_map]
  constructor
  · intro hle
    obtain ⟨⟨idx, s'⟩, hr⟩ := R.choiceNoReplace_isOk (s := s) (n := g.available.length) (size := n)
      (by omega)
    obtain ⟨-, -, -, hlt⟩ := R.choiceNoReplace_ok hr
    rw [generate, hr, bind_ok]
    simp only
    rw [mapM_ok_of_forall (g := fun i => g.num (g.available[i]?.getD (0, 0)))]
    · rw [bind_ok, npDelete_eq hlt]
      exact ⟨_, rfl⟩
    · intro i hi'
      have hi2 := hlt i hi'
      simp only [entry, List.getElem?_eq_getElem hi2, bind_ok, Option.getD_some]
      exact render_ok hi (hi.range _ (List.getElem_mem hi2)).2
  · intro hlt
    rw [generate, R.choiceNoReplace_error (by omega)]
    rfl

/-! ### Non-vacuity -/

example : ((MsisdnGen.new "00" ["1", "2"] 1).generates Rng.counter [(0, 2), (1, 3)]).map (·.1) =
    .ok [["0010", "0011"], ["0028", "0027", "0026"]] := by decide +kernel

end Trumania
