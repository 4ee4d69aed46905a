import Verif.Proofs.SndRun
import Verif.Props.Typed
import Verif.Props.ShopRuns

/-! Helper lemmas: the operations of the stories of the SND scenario never raise on a well-formed circus. -/

namespace Trumania
open Spec World

section
variable {σ γ : Type} {env : Env σ γ} {S : Sig γ} {M : Val → Prop} {Γ : Ctx} {data : Frame} {w : World σ γ}

/-! ### Additions to whole numbers -/

/-- an addition succeeds if each of the values that change stays of its kind -/
theorem Spec.AttFits.add_of {k : AttKind} {a : Attribute} (h : AttFits k a) {ids : List Val} {added : List Cell}
    (hl : ids.length = added.length) (hi : ∀ i ∈ ids, i = .na ∨ k.known i)
    (hq : ∀ x ∈ a.table, x.1 ∈ Attribute.addKeys ids → ∃ q c', Attribute.contribution (ids.zip added) x.1 = .ok q ∧
      Attribute.plusNum x.2 q = .ok c' ∧ k.value c') : ∃ a', a.add ids added = .ok a' ∧ AttFits k a' := by
  have hrow : ∀ l : List (Val × Cell), (∀ x ∈ l, x ∈ a.table) → ∃ l', List.Forall₂ (fun kv kv' =>
      kv'.1 = kv.1 ∧ if kv.1 ∈ Attribute.addKeys ids then
          ∃ q, Attribute.contribution (ids.zip added) kv.1 = .ok q ∧
            Attribute.plusNum kv.2 q = .ok kv'.2
        else kv' = kv) l l' ∧ ∀ x ∈ l', k.value x.2 := by
    intro l
    induction l with
    | nil => exact fun _ => ⟨[], .nil, by simp⟩
    | cons x l ih =>
      intro hx
      obtain ⟨l', h1, h2⟩ := ih fun y hy => hx y (by simp [hy])
      by_cases hm : x.1 ∈ Attribute.addKeys ids
      · obtain ⟨q, c', e1, e2, e3⟩ := hq x (hx x (by simp)) hm
        refine ⟨(x.1, c') :: l', .cons ⟨rfl, by rw [if_pos hm]; exact ⟨q, e1, e2⟩⟩ h1, ?_⟩
        intro y hy
        rcases List.mem_cons.1 hy with rfl | hy
        · exact e3
        · exact h2 y hy
      · refine ⟨x :: l', .cons ⟨rfl, by rw [if_neg hm]⟩ h1, ?_⟩
        intro y hy
        rcases List.mem_cons.1 hy with rfl | hy
        · exact h.value _ (hx _ (by simp))
        · exact h2 y hy
  obtain ⟨l', h1, h2⟩ := hrow a.table fun _ h => h
  have ha : a.add ids added = .ok ⟨l'⟩ := Attribute.add_eq_ok.2 ⟨hl, fun i hi' => by
    obtain ⟨hi1, hi2⟩ := Attribute.mem_addKeys.1 hi'
    exact h.known i ((hi i hi1).resolve_left hi2), h1⟩
  refine ⟨_, ha, fun v hv => ?_, h2⟩
  rw [Attribute.add_ids ha]
  exact h.known v hv

theorem contribution_whole {l : List (Val × Cell)} (h : ∀ x ∈ l, IsWhole x.2) (i : Val) :
    ∃ n : Nat, Attribute.contribution l i = .ok (n : Rat) := by
  induction l with
  | nil => exact ⟨0, by simp [Attribute.contribution]⟩
  | cons x l ih =>
    obtain ⟨n, hn⟩ := ih fun x hx => h x (by simp [hx])
    obtain ⟨j, c⟩ := x
    obtain ⟨m, hm⟩ := h (j, c) (by simp)
    simp only at hm
    subst hm
    by_cases hj : j = i
    · refine ⟨m + n, ?_⟩
      simp only [Attribute.contribution, hj, if_true, hn]
      rw [Nat.cast_add]
      rfl
    · exact ⟨n, by simp only [Attribute.contribution, hj, if_false, hn]⟩

/-- whole numbers stay whole when whole numbers are added -/
theorem attrAdd_whole (hd : Typed M Γ data) (hw : Fits env S w) {pop : Nat} {name i a : String}
    {P : Dict String AttKind} {k : AttKind} (hpop : S.pops[pop]? = some P)
    (hk : P.get? name = some k) (hv : ∀ c, k.value c ↔ IsWhole c)
    (hi : Γ.Has M i fun _ => IdOrNa k.known) (ha : Γ.Has M a fun _ => IsWhole) :
    SafeRun env S M Γ (Ops.attrAdd pop name i a false) data w := by
  refine side_safe hd ?_
  split
  · exact ⟨w, rfl, hw⟩
  have hi' : Γ.Has M i fun _ => IdIn fun v => v = .na ∨ k.known v := by
    obtain ⟨K, hK, h⟩ := hi
    refine ⟨K, hK, fun l c hl hc => ?_⟩
    rcases h l c hl hc with rfl | ⟨v, rfl, hv⟩
    · exact ⟨.na, rfl, Or.inl rfl⟩
    · exact ⟨v, rfl, Or.inr hv⟩
  obtain ⟨ids, h1, h2, h3⟩ := hd.ids hi'
  obtain ⟨vs, h4, h5, h6⟩ := hd.col' ha
  obtain ⟨w', h10, h11⟩ := onAttribute_safe hw hpop hk (f := fun a => a.add ids vs) fun a ha =>
    ha.add_of (by omega) h3 fun x hx _ => by
      obtain ⟨n, hn⟩ := contribution_whole (l := ids.zip vs) (fun y hy => h6 _ (List.of_mem_zip hy).2) x.1
      obtain ⟨m, hm⟩ := (hv _).1 (ha.value x hx)
      refine ⟨n, .num ((m : Rat) + n), hn, by rw [hm]; rfl, (hv _).2 ⟨m + n, ?_⟩⟩
      rw [Nat.cast_add]
  refine ⟨w', ?_, h11⟩
  rw [Act.bind_ok (Act.ofPy_ok h4 w), Act.bind_ok (Act.ofPy_ok (x := Ops.addedValues false vs) rfl w),
    Act.bind_ok (Act.ofPy_ok h1 w), h10]

theorem contribution_none {ids : List Val} {vs : List Cell} {i : Val} (h : i ∉ ids) :
    Attribute.contribution (ids.zip vs) i = .ok 0 := by
  induction ids generalizing vs with
  | nil => rfl
  | cons j ids ih =>
    rw [List.mem_cons, not_or] at h
    cases vs with
    | nil => rfl
    | cons c vs =>
      rw [List.zip_cons_cons]
      have := ih (vs := vs) h.2
      simp only [Attribute.contribution, if_neg (Ne.symm h.1), this]

/-- each of different members gets the value given for them -/
theorem contribution_once {ids : List Val} {vs : List Cell} {Q : Val → Rat → Prop} (hn : ids.Nodup)
    (h : List.Forall₂ (fun i c => ∃ q, c = Cell.num q ∧ Q i q) ids vs) {i : Val} (hi : i ∈ ids) :
    ∃ q, Attribute.contribution (ids.zip vs) i = .ok q ∧ Q i q := by
  induction h with
  | nil => cases hi
  | @cons j c ids vs hc _ ih =>
    obtain ⟨q, rfl, hq⟩ := hc
    rw [List.nodup_cons] at hn
    rw [List.zip_cons_cons]
    by_cases hj : j = i
    · subst hj
      refine ⟨q, ?_, hq⟩
      simp only [Attribute.contribution, if_true, contribution_none hn.1]
      rw [show (do Except.ok (q + (← Except.ok 0)) : Py Rat) = .ok (q + 0) from rfl, add_zero]
    · obtain ⟨q', h1, h2⟩ := ih hn.2 ((List.mem_cons.1 hi).resolve_left (Ne.symm hj))
      exact ⟨q', by simp only [Attribute.contribution, if_neg hj, h1], h2⟩

/-- the values of members can be subtracted from themselves -/
theorem attrAdd_back (hd : Typed M Γ data) (hw : Fits env S w) {pop : Nat} {name i a : String} {p : Population}
    {at0 : Attribute} (hp : w.pops[pop]? = some p) (hat : p.attributes.get? name = some at0) (hn : at0.ids.Nodup)
    {P : Dict String AttKind} {k : AttKind} (hpop : S.pops[pop]? = some P)
    (hk : P.get? name = some k) (hv : ∀ c, k.value c ↔ IsWhole c)
    (hi : Γ.Has M i fun l c => c = .scalar l ∧ k.known l)
    (ha : Γ.Has M a fun l c => (l, c) ∈ at0.table) :
    SafeRun env S M Γ (Ops.attrAdd pop name i a true) data w := by
  refine side_safe hd ?_
  split
  · exact ⟨w, rfl, hw⟩
  obtain ⟨cs, h1, h2⟩ := hd.col hi
  have hcs : cs = data.index.map Cell.scalar ∧ ∀ l ∈ data.index, k.known l := by
    clear h1
    rw [Frame.index]
    generalize data.rows = rows at h2
    induction h2 with
    | nil => exact ⟨rfl, by simp⟩
    | cons h _ ih =>
      refine ⟨by rw [h.1, ih.1]; rfl, fun l hl => ?_⟩
      rcases List.mem_cons.1 hl with rfl | hl
      · exact h.2
      · exact ih.2 l hl
  obtain ⟨rfl, hkn⟩ := hcs
  have hid : Ops.idColumn data i = .ok data.index := by
    refine bind_eq_ok.2 ⟨_, h1, ?_⟩
    rw [mapM_ok_iff, List.forall₂_map_left_iff, List.forall₂_same]
    intro _ _; rfl
  obtain ⟨vs, h3, h4⟩ := hd.col ha
  obtain ⟨p', e1, e2⟩ := hw.pop hpop
  obtain rfl : p' = p := Option.some.inj (e1.symm.trans hp)
  obtain ⟨a', e3, e4⟩ := e2.getAtt hk
  obtain rfl : a' = at0 := Option.some.inj (e3.symm.trans hat)
  have hneg : ∃ vs', Ops.addedValues true vs = .ok vs' ∧
      List.Forall₂ (fun l c => ∃ q, c = Cell.num q ∧ (l, Cell.num (-q)) ∈ a'.table) data.index vs' := by
    have : ∀ (rows : List Row) (vs : List Cell), List.Forall₂ (fun r c => (r.idx, c) ∈ a'.table) rows vs →
        ∃ vs', vs.mapM Ops.negate = .ok vs' ∧
          List.Forall₂ (fun l c => ∃ q, c = Cell.num q ∧ (l, Cell.num (-q)) ∈ a'.table) (rows.map (·.idx)) vs' := by
      intro rows vs h
      induction h with
      | nil => exact ⟨[], rfl, .nil⟩
      | @cons r c rows vs hc _ ih =>
        obtain ⟨vs', f1, f2⟩ := ih
        obtain ⟨m, rfl⟩ := (hv _).1 (e4.value _ hc)
        refine ⟨.num (-(m : Rat)) :: vs', ?_, .cons ⟨_, rfl, by rw [neg_neg]; exact hc⟩ f2⟩
        rw [List.mapM_cons, f1]
        rfl
    obtain ⟨vs', f1, f2⟩ := this data.rows vs h4
    exact ⟨vs', f1, f2⟩
  obtain ⟨vs', h5, h6⟩ := hneg
  obtain ⟨b, h7, h8⟩ : ∃ b, a'.add data.index vs' = .ok b ∧ AttFits k b := by
    refine e4.add_of h6.length_eq (fun l hl => .inr (hkn l hl)) fun x hx hm => ?_
    obtain ⟨q, g1, g2⟩ := contribution_once hd.index h6 (Attribute.mem_addKeys.1 hm).1
    have hx2 : x.2 = .num (-q) := by
      have t1 := Dict.get?_of_mem hn hx
      have t2 := Dict.get?_of_mem hn g2
      exact Option.some.inj (t1.symm.trans t2)
    refine ⟨q, .num (-q + q), g1, by rw [hx2]; rfl, (hv _).2 ⟨0, ?_⟩⟩
    rw [neg_add_cancel]
    rfl
  refine ⟨_, ?_, hw.setPop hpop (e2.setAttribute hk h8)⟩
  rw [Act.bind_ok (Act.ofPy_ok h3 w), Act.bind_ok (Act.ofPy_ok h5 w), Act.bind_ok (Act.ofPy_ok hid w)]
  exact onAttribute_eq_ok.2 ⟨p', a', b, hp, hat, h7, rfl⟩

/-! ### Story data with a column known more precisely -/

theorem Spec.Typed.refine {n : String} {k k' : Val → Cell → Prop} (hd : Typed M (Γ ++ [(n, k)]) data)
    (h : ∀ r ∈ data.rows, k' r.idx (cell data r n)) : Typed M (Γ ++ [(n, k')]) data := by
  have e : Ctx.names (Γ ++ [(n, k')]) = Ctx.names (Γ ++ [(n, k)]) := by simp [Ctx.names]
  refine ⟨by rw [e]; exact hd.cols, by rw [e]; exact hd.distinct, hd.index, hd.labels, fun r hr => ?_⟩
  have h1 := (hd.cells r hr).flip
  have h2 := (List.forall₂_take_append _ _ _ h1).flip
  have h3 := List.forall₂_drop_append _ _ _ h1
  rw [← List.take_append_drop Γ.length r.cells]
  refine List.rel_append h2 ?_
  have h4 : r.cells[Γ.length]? = (r.cells.drop Γ.length)[0]? := by simp
  cases hc : r.cells.drop Γ.length with
  | nil => rw [hc] at h3; cases h3
  | cons c l =>
    rw [hc] at h3 h4
    cases h3 with
    | cons _ h6 =>
      cases h6
      have hcell : cell data r n = c := by
        refine cell_of_nodup (j := Γ.length) (by rw [hd.cols]; exact hd.distinct) ?_ h4
        rw [hd.cols]
        simp [Ctx.names]
      refine .cons ?_ .nil
      rw [← hcell]
      exact h r hr

/-- the cell of a column -/
theorem Spec.Typed.cell_of {n : String} {A : Val → Cell → Prop} (hd : Typed M Γ data) (h : Γ.Has M n A) {r : Row}
    (hr : r ∈ data.rows) : A r.idx (cell data r n) := by
  obtain ⟨cs, h1, h2⟩ := hd.col h
  rw [Frame.col_eq_map h1, List.forall₂_map_right_iff, List.forall₂_same] at h2
  exact h2 r hr

/-- a lookup gives the values of the acting members -/
theorem lookup_exact (hd : Typed M Γ data) (hw : Fits env S w) {pop : Nat} {i name as : String} {p : Population}
    {at0 : Attribute} (hp : w.pops[pop]? = some p) (hwf : Population.WF p) (hat : p.attributes.get? name = some at0)
    {P : Dict String AttKind} {k : AttKind} (hpop : S.pops[pop]? = some P) (hk : P.get? name = some k)
    (hi : Γ.Has M i fun l c => c = .scalar l ∧ k.known l) (hn : (Γ.names ++ [as]).Nodup) :
    ∃ out logs, Ops.lookup pop i [(name, as)] data w = .ok (out, logs) w ∧
      Typed M (Γ ++ [(as, fun l c => k.value c ∧ (l, c) ∈ at0.table)]) out := by
  obtain ⟨K, hK, hKi⟩ := hi
  obtain ⟨out, logs, w', h1, h2, -⟩ := lookup_safe hd hw (sel := [(name, as)]) hpop
    ⟨K, hK, fun l c hl hc => ⟨l, (hKi l c hl hc).1⟩⟩ (by
      intro x hx
      obtain rfl : x = (name, as) := by simpa using hx
      exact ⟨k, hk, K, hK, fun l c hl hc => ⟨l, (hKi l c hl hc).1, (hKi l c hl hc).2⟩⟩) hn
  have hnew : as ∉ data.cols := by
    rw [hd.cols]
    intro hm
    exact (List.nodup_append.1 hn).2.2 _ hm _ (by simp) rfl
  obtain ⟨rfl, -, e1, -, -, e2⟩ := C56_lookup hp hwf hd.index hd.rect (by simp) (by simpa using hnew) h1
  refine ⟨out, logs, h1, Spec.Typed.refine h2 fun r' hr' => ?_⟩
  obtain ⟨j, hj, rfl⟩ := List.getElem_of_mem hr'
  have hlen : out.rows.length = data.rows.length := by
    have := congrArg List.length e1
    rwa [Frame.index_length, Frame.index_length] at this
  have hj' : j < data.rows.length := by omega
  have hidx : out.rows[j].idx = data.rows[j].idx := by
    have := congrArg (fun l => l[j]?) e1
    simpa [Frame.index, hj, hj'] using this
  obtain ⟨a, h3, h4⟩ := e2 j data.rows[j] out.rows[j] (List.getElem?_eq_getElem hj') (List.getElem?_eq_getElem hj)
    (name, as) (by simp)
  have hce := (hd.cell_of (A := fun l c => c = .scalar l ∧ k.known l) ⟨K, hK, hKi⟩ (List.getElem_mem hj')).1
  rw [hce] at h4
  obtain rfl : a = at0 := by
    have := Dict.get?_of_mem hwf.names h3
    exact Option.some.inj (this.symm.trans hat)
  obtain ⟨p', f1, f2⟩ := hw.pop hpop
  obtain rfl : p' = p := Option.some.inj (f1.symm.trans hp)
  obtain ⟨a', f3, f4⟩ := f2.getAtt hk
  obtain rfl : a' = a := Option.some.inj (f3.symm.trans hat)
  rw [hidx]
  exact ⟨f4.value _ h4, h4⟩

/-! ### Chains and executions -/

/-- the operations after the first one run on what it makes -/
theorem chain_next {Γ' : Ctx} {op : Op (World σ γ)} {ops : List (Op (World σ γ))} {mid : Frame} {l : Logs}
    {w1 : World σ γ} (h1 : op data w = .ok (mid, l) w1)
    (hs : SafeRun env S M Γ' (World.chain env.logSet ops) mid w1) :
    SafeRun env S M Γ' (World.chain env.logSet (op :: ops)) data w := by
  obtain ⟨r, hr, -⟩ := executeOperation_ok (so := env.logSet) (acc := []) h1
  obtain ⟨out, logs, w', h4, h5, h6⟩ := runOps_safe (acc := r) hs
  refine ⟨out, logs, w', ?_, h5, h6⟩
  rw [World.chain, runOps, Act.bind_ok hr, h4]

/-- an execution of a story whose operations run on the ids of its acting members -/
theorem execute_of {i : Nat} {K : StoryKind} (hi : S.stories[i]? = some K) {ops : List (Op (World σ γ))}
    (hw : Fits env S w) (ho : ∀ data u, Typed K.members [(K.idField, fun l c => c = .scalar l)] data →
      Fits env S u → u.pops = w.pops → ∃ Γ', SafeRun env S K.members Γ' (World.chain env.logSet ops) data u) :
    ∃ logs w', World.execute env ops i w = .ok logs w' ∧ Fits env S w' := by
  obtain ⟨w1, h1, h2⟩ := onStory_safe hi (f := fun s => .ok s.clearForced)
    (fun s hs => ⟨_, rfl, hs.clearForced⟩) hw
  have hpops : w1.pops = w.pops := by
    obtain ⟨_, _, -, -, rfl⟩ := onStory_eq_ok.1 h1
    rfl
  obtain ⟨s, h3, h4⟩ := h2.story hi
  have hact : ∀ x ∈ s.activeIds, K.members x := by
    intro x hx
    obtain ⟨r, hr, rfl⟩ := List.mem_map.1 hx
    exact (h4.members _).1 (List.mem_map.2 ⟨r, List.mem_of_mem_filter hr, rfl⟩)
  have hina : ∀ x ∈ s.inactiveIds, K.members x := fun x hx =>
    (h4.members _).1 ((Story.mem_inactiveIds h4.nodup).1 hx).1
  have : ∃ logs w2, runActive env ops i s s.activeIds w1 = .ok logs w2 ∧ Fits env S w2 := by
    rw [runActive]
    split
    · exact ⟨[], w1, rfl, h2⟩
    · obtain ⟨Γ', out, logs, w2, h5, -, h6⟩ := ho _ w1 (init_typed h4) h2 hpops
      obtain ⟨s2, h7, h8⟩ := h6.story hi
      have : ∃ w3, reschedule env i s.activeIds w2 = .ok () w3 ∧ Fits env S w3 := by
        rw [reschedule, Act.bind_ok (getStory_eq_ok.2 ⟨h7, rfl⟩)]
        split
        · exact resetTimers_safe hi (fun l hl x hx => by cases hl; exact hact x hx) h6
        · exact onStory_safe hi (fun s hs => hs.timerTick hact) h6
      obtain ⟨w3, h9, h10⟩ := this
      refine ⟨logs, w3, ?_, h10⟩
      rw [Act.bind_ok h5]
      simp only
      rw [Act.bind_ok h9]
      rfl
  obtain ⟨logs, w2, h5, h6⟩ := this
  obtain ⟨w3, h7, h8⟩ := onStory_safe hi (f := fun t => t.timerTick s.inactiveIds)
    (fun s hs => hs.timerTick hina) h6
  refine ⟨logs, w3, ?_, h8⟩
  rw [World.execute, Act.bind_ok h1, Act.bind_ok (getStory_eq_ok.2 ⟨h3, rfl⟩), Act.bind_ok h5,
    Act.bind_ok h7]
  rfl

/-- the operations after some safe ones run on what these make -/
theorem chain_after {Γ Γ1 Γ2 : Ctx} {pre rest : List (Op (World σ γ))} (h : SafeOps env S M Γ pre Γ1)
    (hrest : ∀ data w, Typed M Γ1 data → Fits env S w → SafeRun env S M Γ2 (World.chain env.logSet rest) data w) :
    ∀ data w, Typed M Γ data → Fits env S w → SafeRun env S M Γ2 (World.chain env.logSet (pre ++ rest)) data w := by
  induction h with
  | nil => exact hrest
  | cons h _ ih =>
    intro data w hd hw
    exact chain_safe (safe_run h hd hw) (ih hrest)
end

namespace Snd
variable {σ γ : Type} {env : Env σ γ} {fmt : Int → Cell} {step : Int} {gens : List (γ → Prop)} {dist deal ag : List Val}

/-! ### The declarations of the scenario -/

/-- a story whose members have no other state than the default one, or these -/
abbrev kindOf (ids : List Val) (others : Val → Prop) (field : String) : StoryKind :=
  ⟨(· ∈ ids), fun st => st = .str "default" ∨ others st, field⟩

/-- what the scenario has, with the ids of its distributors, of its dealers and of its agents -/
def signature (step : Int) (gens : List (γ → Prop)) (dist deal ag : List Val) : Sig γ where
  step := step
  gens := gens
  rels := [⟨fun _ => True, fun _ => False, true⟩, ⟨fun _ => True, fun _ => False, true⟩,
    ⟨fun _ => True, fun _ => False, true⟩, ⟨fun _ => True, fun _ => False, false⟩, ⟨(· ∈ dist), fun _ => False, true⟩]
  pops := [[("SIMS_TO_RESTOCK", ⟨(· ∈ dist), IsWhole⟩)], [("BULK_BUY_SIZE", ⟨(· ∈ deal), IsWhole⟩)],
    [("AGENT_NAME", ⟨(· ∈ ag), fun _ => True⟩)],
    [("DATE", ⟨fun _ => False, fun _ => True⟩), ("TEXT", ⟨fun _ => False, fun _ => True⟩),
      ("AGENT_ID", ⟨fun _ => False, fun _ => True⟩), ("AGENT_NAME", ⟨fun _ => False, fun _ => True⟩)]]
  stories := [kindOf dist (fun _ => False) "DISTRIBUTOR_ID", kindOf ag (· = .str "on_holiday") "AGENT",
    kindOf deal (fun _ => False) "DEALER_ID", kindOf ag (fun _ => False) "AGENT", kindOf ag (fun _ => False) "AGENT",
    kindOf ag (fun _ => False) "AGENT"]

theorem idOrNa_id {P : Val → Prop} {c : Cell} (h : IdOrNa P c) : IsId c := by
  rcases h with rfl | ⟨v, rfl, -⟩
  · exact ⟨_, rfl⟩
  · exact ⟨v, rfl⟩

theorem purchase_ok (hstep : nsPerSec ≤ step) :
    SafeStory env (signature step gens dist deal ag) (kindOf ag (· = .str "on_holiday") "AGENT")
      (purchaseOps env fmt 1 3 1 2) := by
  exact ⟨_, .cons (.timestamp (P := fun _ => True) (fun _ => trivial) (fun _ => hstep) (by simp [Ctx.names]))
    (.cons (.selectOne (d := false) rfl (fun h => by cases h) ⟨_, .head _, fun i _ _ h => ⟨i, h⟩⟩ (by simp) (by simp [Ctx.names]))
    (.cons (.selectOne (d := false) rfl (fun _ => ⟨rfl, fun _ h => h⟩)
      ⟨fun _ => IdOrNa fun _ => True, by simp, fun _ _ _ h => idOrNa_id h⟩ (by simp) (by simp [Ctx.names]))
    (.cons (.applySeries (As := [fun _ => True]) (P := IsBool)
      (.cons ⟨fun _ => IdOrNa fun _ => True, by simp, fun _ _ _ _ => trivial⟩ .nil) (by
        intro n cols h
        cases h with
        | cons h1 h2 =>
          cases h2
          refine ⟨_, rfl, by rw [List.length_map]; exact h1.1, fun v hv => ?_⟩
          obtain ⟨c, -, rfl⟩ := List.mem_map.1 hv
          exact ⟨_, rfl⟩) (by simp [Ctx.names]))
    (.cons (.forceActNext (K := kindOf ag (· = .str "on_holiday") "AGENT") rfl
      ⟨_, .head _, fun i _ hi h => .inr ⟨i, h, hi⟩⟩ (by
        rintro c hc
        cases hc
        exact ⟨fun _ => IsBool, by simp, fun _ _ _ h => h⟩))
    (.cons (.fieldLogger (by simp))
    (.cons (.dropRow ⟨fun _ => IsBool, by simp, fun _ _ _ h => h⟩)
    (.cons (.relAdd rfl ⟨_, .head _, fun i _ _ h => ⟨i, h⟩⟩ ⟨fun _ => IdOrNa fun _ => True, by simp, fun _ _ _ h => by
      obtain ⟨v, hv⟩ := idOrNa_id h
      exact ⟨v, hv, trivial⟩⟩)
    (.cons (.maybeBackToDefault (K := kindOf ag (· = .str "on_holiday") "AGENT") rfl fun _ h => h) .nil))))))))⟩

theorem lengths_whole {n : Nat} {cols : List (List Cell)}
    (h : List.Forall₂ (fun (A : Cell → Prop) col => col.length = n ∧ ∀ c ∈ col, A c) [ListOf fun _ => True] cols) :
    ∃ vs, lengths cols = .ok vs ∧ vs.length = n ∧ ∀ v ∈ vs, IsWhole v := by
  cases h with
  | @cons _ col _ _ h1 h2 =>
    cases h2
    obtain ⟨vs, hvs⟩ := mapM_isOk (f := lengthOf) (l := col) fun c hc => by
      obtain ⟨l, rfl, -⟩ := h1.2 c hc
      exact ⟨_, rfl⟩
    have hf := mapM_ok_iff.1 hvs
    refine ⟨vs, hvs, by rw [← hf.length_eq, h1.1], fun v hv => ?_⟩
    obtain ⟨c, hc, e⟩ := forall₂_exists_left hf hv
    obtain ⟨l, rfl, -⟩ := h1.2 c hc
    cases e
    exact ⟨_, rfl⟩

theorem bulk_ok (hstep : nsPerSec ≤ step) {data : Frame} {w : World σ γ}
    (hd : Typed (· ∈ deal) [("DEALER_ID", fun l c => c = .scalar l)] data)
    (hw : Fits env (signature step gens dist deal ag) w) :
    ∃ Γ', SafeRun env (signature step gens dist deal ag) (· ∈ deal) Γ'
      (World.chain env.logSet (bulkOps env fmt 2 0 1 0 4 0 1)) data w := by
  exact ⟨_, chain_after (pre := [Ops.timestamp env "DATETIME" true fmt,
   Ops.selectOne env 4 "DEALER_ID" "DISTRIBUTOR" false false false none,
   Ops.lookup 1 "DEALER_ID" [("BULK_BUY_SIZE", "BULK_BUY_SIZE")],
   Ops.selectMany env 0 "DISTRIBUTOR" "SIM_BULK" "BULK_BUY_SIZE" true true,
   Ops.relAddGrouped env 1 "DEALER_ID" "SIM_BULK",
   Ops.applySeries ["SIM_BULK"] "NUMBER_OF_SIMS" lengths])
   (.cons (.timestamp (P := fun _ => True) (fun _ => trivial) (fun _ => hstep) (by simp [Ctx.names]))
   (.cons (.selectOne (d := false) rfl (fun h => by cases h) ⟨_, .head _, fun i _ _ h => ⟨i, h⟩⟩ (by simp) (by simp [Ctx.names]))
   (.cons (.lookup (P := [("BULK_BUY_SIZE", ⟨(· ∈ deal), IsWhole⟩)]) rfl ⟨_, .head _, fun i _ _ h => ⟨i, h⟩⟩ (by
      intro x hx
      obtain rfl : x = ("BULK_BUY_SIZE", "BULK_BUY_SIZE") := by simpa using hx
      exact ⟨_, rfl, _, .head _, fun i _ hi h => ⟨i, h, hi⟩⟩) (by simp [Ctx.names]))
   (.cons (.selectMany rfl (fun _ => ⟨rfl, fun _ h => h⟩)
      ⟨fun _ => IdOrNa (· ∈ dist), by simp, fun _ _ _ h => idOrNa_id h⟩
      ⟨fun _ => attValue [("BULK_BUY_SIZE", ⟨(· ∈ deal), IsWhole⟩)] "BULK_BUY_SIZE", by simp, fun _ _ _ h => by
        obtain ⟨k, hk, hc⟩ := h
        cases hk
        exact hc⟩ (by simp [Ctx.names]))
   (.cons (.relAddGrouped rfl ⟨_, .head _, fun i _ _ h => ⟨i, h⟩⟩ ⟨fun _ => ListOf fun _ => True, by simp, fun _ _ _ h => h⟩)
   (.cons (.applySeries (As := [ListOf fun _ => True]) (P := IsWhole)
      (.cons ⟨fun _ => ListOf fun _ => True, by simp, fun _ _ _ h => h⟩ .nil) (fun n cols h => lengths_whole h) (by simp [Ctx.names]))
   .nil)))))) (fun _ _ hd hw => chain_safe (attrAdd_whole hd hw rfl rfl (fun _ => Iff.rfl)
    ⟨fun _ => IdOrNa (· ∈ dist), by simp, fun _ _ _ h => h⟩ ⟨fun _ => IsWhole, by simp, fun _ _ _ h => h⟩)
    fun _ _ hd hw => safe_run (safeOps_chain
    (.cons (.forceActNext (K := kindOf dist (fun _ => False) "DISTRIBUTOR_ID") rfl
      ⟨fun _ => IdOrNa (· ∈ dist), by simp, fun _ _ _ h => h⟩ (by simp))
    (.cons (.fieldLogger (by simp [Ctx.names]))
    (.cons (.maybeBackToDefault (K := kindOf deal (fun _ => False) "DEALER_ID") rfl fun _ h => h) .nil)))) hd hw) data w hd hw⟩

theorem leave_ok (hstep : nsPerSec ≤ step) :
    SafeStory env (signature step gens dist deal ag) (kindOf ag (fun _ => False) "AGENT") (leaveOps env fmt 3 1 4) := by
  exact ⟨_, .cons (.transitToState (K := kindOf ag (· = .str "on_holiday") "AGENT") rfl
      ⟨_, .head _, fun i _ hi h => .inr ⟨i, h, hi⟩⟩ (.inr rfl) (by simp))
    (.cons (.resetTimers (K := kindOf ag (fun _ => False) "AGENT") rfl ⟨_, .head _, fun i _ hi h => .inr ⟨i, h, hi⟩⟩)
    (.cons (.timestamp (P := fun _ => True) (fun _ => trivial) (fun _ => hstep) (by simp [Ctx.names]))
    (.cons (.randomValues (P := fun _ => True) (.constSize trivial) (by simp [Ctx.names]))
    (.cons (.fieldLogger (by simp))
    (.cons (.maybeBackToDefault (K := kindOf ag (fun _ => False) "AGENT") rfl fun _ h => h) .nil)))))⟩

theorem return_ok (hstep : nsPerSec ≤ step) :
    SafeStory env (signature step gens dist deal ag) (kindOf ag (fun _ => False) "AGENT") (returnOps env fmt 4 1) := by
  exact ⟨_, .cons (.transitToState (K := kindOf ag (· = .str "on_holiday") "AGENT") rfl
      ⟨_, .head _, fun i _ hi h => .inr ⟨i, h, hi⟩⟩ (.inl rfl) (by simp))
    (.cons (.timestamp (P := fun _ => True) (fun _ => trivial) (fun _ => hstep) (by simp [Ctx.names]))
    (.cons (.randomValues (P := fun _ => True) (.constSize trivial) (by simp [Ctx.names]))
    (.cons (.fieldLogger (by simp))
    (.cons (.maybeBackToDefault (K := kindOf ag (fun _ => False) "AGENT") rfl fun _ h => h) .nil))))⟩

theorem review_ok {ids texts : GenRef} (hstep : nsPerSec ≤ step)
    (h1 : GenOk env (signature step gens dist deal ag) ids .size (IdIn fun _ => True))
    (h2 : GenOk env (signature step gens dist deal ag) texts .size fun _ => True) :
    SafeStory env (signature step gens dist deal ag) (kindOf ag (fun _ => False) "AGENT")
      (reviewOps env fmt 5 2 3 ids texts) := by
  exact ⟨_, .cons (.timestamp (P := fun _ => True) (fun _ => trivial) (fun _ => hstep) (by simp [Ctx.names]))
    (.cons (.lookup (P := [("AGENT_NAME", ⟨(· ∈ ag), fun _ => True⟩)]) rfl ⟨_, .head _, fun i _ _ h => ⟨i, h⟩⟩ (by
      intro x hx
      obtain rfl : x = ("AGENT_NAME", "AGENT_NAME") := by simpa using hx
      exact ⟨_, rfl, _, .head _, fun i _ hi h => ⟨i, h, hi⟩⟩) (by simp [Ctx.names]))
    (.cons (.randomValues h1 (by simp [Ctx.names]))
    (.cons (.randomValues h2 (by simp [Ctx.names]))
    (.cons (.popUpdate (P := [("DATE", ⟨fun _ => False, fun _ => True⟩), ("TEXT", ⟨fun _ => False, fun _ => True⟩),
        ("AGENT_ID", ⟨fun _ => False, fun _ => True⟩), ("AGENT_NAME", ⟨fun _ => False, fun _ => True⟩)]) rfl
      (by intro name; rfl) (by decide) ⟨fun _ => IdIn fun _ => True, by simp, fun _ _ _ h => by
        obtain ⟨v, hv, -⟩ := h
        exact ⟨v, hv⟩⟩ (by
      intro x hx
      simp only [List.mem_cons, List.not_mem_nil, or_false] at hx
      rcases hx with rfl | rfl | rfl | rfl
      · exact ⟨fun _ _ => True, by simp, fun _ _ _ _ => ⟨_, rfl, trivial⟩⟩
      · exact ⟨fun _ _ => True, by simp, fun _ _ _ _ => ⟨_, rfl, trivial⟩⟩
      · exact ⟨_, .head _, fun _ _ _ _ => ⟨_, rfl, trivial⟩⟩
      · exact ⟨fun _ => attValue [("AGENT_NAME", ⟨(· ∈ ag), fun _ => True⟩)] "AGENT_NAME", by simp,
          fun _ _ _ _ => ⟨_, rfl, trivial⟩⟩))
    (.cons (.fieldLogger (by simp))
    (.cons (.maybeBackToDefault (K := kindOf ag (fun _ => False) "AGENT") rfl fun _ h => h) .nil))))))⟩

/-- A restock: what distributors miss is looked up, delivered, and subtracted from what they miss, which is 0 then. -/
theorem restock_ok {sg : GenRef} (hstep : nsPerSec ≤ step) {data : Frame} {w : World σ γ}
    (hsim : GenOk env (signature step gens dist deal ag) sg .size (IdIn fun _ => True))
    (hd : Typed (· ∈ dist) [("DISTRIBUTOR_ID", fun l c => c = .scalar l)] data)
    (hw : Fits env (signature step gens dist deal ag) w) (hwf : ∀ p ∈ w.pops, Population.WF p) :
    ∃ Γ', SafeRun env (signature step gens dist deal ag) (· ∈ dist) Γ'
      (World.chain env.logSet (restockOps env fmt 0 0 0 sg)) data w := by
  obtain ⟨p, hp, hpf⟩ := hw.pop (i := 0) rfl
  obtain ⟨at0, hat, -⟩ := hpf.getAtt (name := "SIMS_TO_RESTOCK") rfl
  have hwfp := hwf p (List.mem_of_getElem? hp)
  obtain ⟨d1, l1, w1, e1, t1, f1⟩ := timestamp_safe (env := env) (name := "DATETIME") (random := true) (fmt := fmt) hd hw
    (P := fun _ => True) (fun _ => trivial) (fun _ => hstep) (by simp [Ctx.names])
  have p1 : w1.pops[0]? = some p := by rw [columnAdder_pops (.timestamp _ _) e1]; exact hp
  obtain ⟨d2, l2, e2, t2⟩ := lookup_exact (pop := 0) (i := "DISTRIBUTOR_ID") (as := "SIMS_TO_RESTOCK") t1 f1 p1 hwfp hat rfl rfl
    ⟨_, .head _, fun i _ hi h => ⟨h, hi⟩⟩ (by simp [Ctx.names])
  obtain ⟨d3, l3, w3, e3, t3, f3⟩ := randomBulks_safe (g := sg) (name := "NEW_SIMS_IDS") (q := "SIMS_TO_RESTOCK") t2 f1 hsim
    ⟨fun l c => IsWhole c ∧ (l, c) ∈ at0.table, by simp, fun _ _ _ h => h.1⟩ (by simp [Ctx.names])
  have p3 : w3.pops[0]? = some p := by rw [columnAdder_pops (.randomValues _ _) e3]; exact p1
  obtain ⟨d4, l4, w4, e4, t4, f4⟩ := relAddGrouped_safe (env := env) (rel := 0) (f := "DISTRIBUTOR_ID") (i := "NEW_SIMS_IDS") t3 f3 rfl
    ⟨_, .head _, fun i _ _ h => ⟨i, h⟩⟩ ⟨fun _ => ListOf fun _ => True, by simp, fun _ _ _ h => h⟩
  have p4 : w4.pops[0]? = some p := by rw [KeepsPop.relAddGrouped (k := 0) d3 (d4, l4) w3 w4 e4]; exact p3
  have h5 := attrAdd_back (i := "DISTRIBUTOR_ID") (a := "SIMS_TO_RESTOCK") t4 f4 p4 hat
    (hwfp.values _ (Dict.get?_mem hat)) rfl rfl (fun _ => Iff.rfl)
    ⟨_, .head _, fun i _ hi h => ⟨h, hi⟩⟩ ⟨fun l c => IsWhole c ∧ (l, c) ∈ at0.table, by simp, fun _ _ _ h => h.2⟩
  exact ⟨_, chain_next e1 (chain_next e2 (chain_next e3 (chain_next e4 (chain_safe h5 fun _ _ hd hw => safe_run (safeOps_chain
    (.cons (.fieldLogger (by simp [Ctx.names]))
    (.cons (.maybeBackToDefault (K := kindOf dist (fun _ => False) "DISTRIBUTOR_ID") rfl fun _ h => h) .nil))) hd hw))))⟩

end Snd
end Trumania
