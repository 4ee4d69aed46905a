import Verif.Model.Generators
import Verif.Proofs.Ids
import Verif.Proofs.NpDelete
import Verif.Spec.Msisdn

/-! Helper lemmas for C07. -/

namespace Trumania.MsisdnGen

/-- invariant of the generator -/
structure Inv (cc : String) (pref : List String) (len : Nat) (g : MsisdnGen) : Prop where
  hcc : g.cc = cc
  hpref : g.pref = pref
  hlength : g.length = len
  nodup : g.available.Nodup
  range : ∀ e ∈ g.available, e.1 < 10 ^ len - 1 ∧ e.2 < pref.length

theorem inv_new (cc : String) (pref : List String) (len : Nat) :
    Inv cc pref len (new cc pref len) where
  hcc := rfl
  hpref := rfl
  hlength := rfl
  nodup := by
    simp only [new]
    rw [List.nodup_flatMap]
    refine ⟨fun i _ => List.nodup_range.map (fun a b h => (Prod.mk.inj h).1), ?_⟩
    refine List.Pairwise.imp_of_mem ?_ List.nodup_range
    intro i j _ _ hij
    rw [Function.onFun, List.disjoint_left]
    rintro ⟨a, b⟩ h1 h2
    simp only [List.mem_map, Prod.mk.injEq] at h1 h2
    obtain ⟨_, -, -, rfl⟩ := h1
    obtain ⟨_, -, -, rfl⟩ := h2
    exact hij rfl
  range := by
    rintro ⟨x, i⟩ h
    simp only [new, List.mem_flatMap, List.mem_range, List.mem_map, Prod.mk.injEq] at h
    obtain ⟨j, hj, y, hy, rfl, rfl⟩ := h
    exact ⟨hy, hj⟩

theorem available_length_new (cc : String) (pref : List String) (len : Nat) :
    (new cc pref len).available.length = pref.length * (10 ^ len - 1) := by
  simp [new, List.length_flatMap]

/-- the rendered number of an entry -/
def num (g : MsisdnGen) (e : Nat × Nat) : String :=
  g.cc ++ (g.pref[e.2]?.getD "") ++ String.ofList (zfill (pyStr e.1) g.length)

theorem render_ok {cc : String} {pref : List String} {len : Nat} {g : MsisdnGen}
    (h : Inv cc pref len g) {e : Nat × Nat} (he : e.2 < pref.length) :
    g.render e = .ok (g.num e) := by
  rw [render, num, h.hpref, List.getElem?_eq_getElem he]
  rfl

theorem pos_len {len x : Nat} (h : x < 10 ^ len - 1) : 0 < len := by
  rcases Nat.eq_zero_or_pos len with rfl | h'
  · simp at h
  · exact h'

theorem num_wf {cc : String} {pref : List String} {len : Nat} {g : MsisdnGen}
    (h : Inv cc pref len g) {e : Nat × Nat} (he : e.1 < 10 ^ len - 1 ∧ e.2 < pref.length) :
    WellFormed cc pref len (g.num e) := by
  refine ⟨pref[e.2], List.getElem_mem he.2, zfill (pyStr e.1) len, ?_, zfill_nat_digits, ?_⟩
  · exact zfill_nat_length (pos_len he.1) (by omega)
  · rw [num, h.hpref, h.hcc, h.hlength, List.getElem?_eq_getElem he.2]; rfl

theorem num_injective {cc : String} {pref : List String} {len : Nat} {g : MsisdnGen}
    (h : Inv cc pref len g) (hp : pref.Nodup) {e f : Nat × Nat}
    (he : e.1 < 10 ^ len - 1 ∧ e.2 < pref.length) (hf : f.1 < 10 ^ len - 1 ∧ f.2 < pref.length)
    (hef : g.num e = g.num f) : e = f := by
  simp only [num, h.hpref, h.hcc, h.hlength, List.getElem?_eq_getElem he.2,
    List.getElem?_eq_getElem hf.2, Option.getD_some, ← String.toList_inj, String.toList_append,
    String.toList_ofList, List.append_assoc] at hef
  have h1 := List.append_cancel_left hef
  have hl1 := zfill_nat_length (n := e.1) (pos_len he.1) (by omega)
  have hl2 := zfill_nat_length (n := f.1) (pos_len hf.1) (by omega)
  obtain ⟨h2, h3⟩ := List.append_inj' h1 (by rw [hl1, hl2])
  have h4 := zfill_pyStr_injective h3
  have h5 : pref[e.2] = pref[f.2] := String.toList_inj.1 h2
  have h6 := (List.Nodup.getElem_inj_iff hp).1 h5
  exact Prod.ext (by exact_mod_cast h4) h6

/-- effect of one successful call -/
theorem generate_ok {σ : Type} {R : Rng σ} {s : σ} {cc : String} {pref : List String} {len : Nat}
    {g g' : MsisdnGen} {size : Nat} {v : List String} (h : Inv cc pref len g)
    (hg : generate R s g size = .ok (v, g')) :
    ∃ es, v = es.map g.num ∧ es.length = size ∧ (es ++ g'.available).Perm g.available ∧
      g' = { g with available := g'.available } := by
  simp only [generate, bind_eq_ok] at hg
  obtain ⟨⟨idx, s'⟩, hc, ms, hm, rest, hr, hfin⟩ := hg
  cases hfin
  obtain ⟨-, hlen, hnd, hlt⟩ := R.choiceNoReplace_ok hc
  obtain ⟨hk, -⟩ := npDelete_ok hr
  refine ⟨picked g.available idx, ?_, ?_, ?_, rfl⟩
  · rw [mapM_ok_iff] at hm
    have : ∀ i ∈ idx, i < g.available.length := hlt
    clear hc hr hk hlen hnd hlt
    simp only at hm
    induction hm with
    | nil => rfl
    | @cons i m is mms hi _ ih =>
      have hi' := this i (by simp)
      rw [picked, List.filterMap_cons, List.getElem?_eq_getElem hi']
      simp only [entry, List.getElem?_eq_getElem hi', bind_ok] at hi
      rw [render_ok h (h.range _ (List.getElem_mem hi')).2] at hi
      cases hi
      rw [List.map_cons, ih (fun j hj => this j (by simp [hj]))]
      rfl
  · rw [picked_length hlt, hlen]
  · simp only [hk]
    exact picked_kept_perm hnd

theorem inv_generate {σ : Type} {R : Rng σ} {s : σ} {cc : String} {pref : List String} {len : Nat}
    {g g' : MsisdnGen} {size : Nat} {v : List String} (h : Inv cc pref len g)
    (hg : generate R s g size = .ok (v, g')) : Inv cc pref len g' := by
  obtain ⟨es, -, -, hp, he⟩ := generate_ok h hg
  have hn := hp.nodup_iff.2 h.nodup
  exact ⟨by rw [he]; exact h.hcc, by rw [he]; exact h.hpref, by rw [he]; exact h.hlength,
    (List.nodup_append.1 hn).2.1,
    fun e hm => h.range e (hp.mem_iff.1 (List.mem_append_right _ hm))⟩

theorem num_congr {g g' : MsisdnGen} (h : g' = { g with available := g'.available }) :
    g'.num = g.num := by
  funext e; rw [h]; rfl

/-- effect of a history of successful calls -/
theorem generates_ok {σ : Type} {R : Rng σ} {cc : String} {pref : List String} {len : Nat}
    {g g' : MsisdnGen} {calls : List (σ × Nat)} {vs : List (List String)} (h : Inv cc pref len g)
    (hg : generates R g calls = .ok (vs, g')) :
    ∃ es, vs.flatten = es.map g.num ∧ vs.map List.length = calls.map Prod.snd ∧
      (es ++ g'.available).Perm g.available ∧ Inv cc pref len g' := by
  induction calls generalizing g vs with
  | nil =>
    cases hg
    exact ⟨[], rfl, rfl, List.Perm.refl _, h⟩
  | cons c calls ih =>
    obtain ⟨s, n⟩ := c
    simp only [generates, bind_eq_ok] at hg
    obtain ⟨⟨v, g1⟩, h1, ⟨vs', g2⟩, h2, hfin⟩ := hg
    cases hfin
    have hinv := inv_generate h h1
    obtain ⟨es, he, hl, hp, hi⟩ := ih hinv h2
    obtain ⟨es1, he1, hl1, hp1, heq⟩ := generate_ok h h1
    refine ⟨es1 ++ es, ?_, ?_, ?_, hi⟩
    · rw [List.flatten_cons, he, he1, num_congr heq, List.map_append]
    · simp [he1, hl1, hl]
    · rw [List.append_assoc]
      exact (hp.append_left es1).trans hp1

end Trumania.MsisdnGen
