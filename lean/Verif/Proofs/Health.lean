import Verif.Spec.Health
import Verif.Proofs.CdrRun
import Verif.Proofs.CdrObjects
import Verif.Props.Cdr
import Verif.Props.Fields

/-! Helper lemmas: the break-downs and the repairs of the cells (uganda.py:88-117). -/

namespace Trumania
namespace Cdr
open Spec World
variable {σ γ : Type} {env : Env σ γ} {fmt : Int → Cell} {data out : Frame} {ls : List Logs} {w w' : World σ γ}

/-- the logged fields (uganda.py:99-101, 114-116) -/
def statusLog : List String := ["TIME", "CELL_ID", "NEW_HEALTH_LEVEL"]

/-- What one execution of the break-downs or of the repairs does, `r` being the generator of the levels: `tbl` is
the logged table, `p'` are the cells and `ah'` their health afterwards. -/
structure HealthRun (env : Env σ γ) (cells : Nat) (r : GenRef) (data : Frame) (w w' : World σ γ) (p : Population)
    (ah : Attribute) (ls : List Logs) (tbl : Frame) (p' : Population) (ah' : Attribute) : Prop where
  logged : ls.filterMap (·.get? "cell_status") = [tbl]
  quiet : ∀ id, id ≠ "cell_status" → ls.filterMap (·.get? id) = []
  index : tbl.index = data.index
  own : ∀ x ∈ tbl.rows, cell tbl x "CELL_ID" = .scalar x.idx
  drawn : ∀ g, Began env w r g → ∀ x ∈ tbl.rows, CanDraw env g (cell tbl x "NEW_HEALTH_LEVEL")
  others : ∀ k, k ≠ cells → w'.pops[k]? = w.pops[k]?
  pop : w'.pops[cells]? = some p'
  attr : attributeOf p' "HEALTH" ah'
  values : ∀ s c, Holds ah' s c ↔ (∃ x ∈ tbl.rows, x.idx = s ∧ c = cell tbl x "NEW_HEALTH_LEVEL") ∨
    (s ∉ data.index ∧ Holds ah s c)

theorem drawn_field {r : GenRef} {name : String} {logs : Logs} (hr : Rect data) (hn : data.index.Nodup)
    (hname : name ∉ data.cols) (h : Ops.randomValues env r name none data w = .ok (out, logs) w') {g : γ}
    (hw : Began env w r g) : ∀ i ∈ out.index, CanDraw env g (valueAt out i name) := by
  obtain ⟨-, hg, hi⟩ := grows_adder (env := env) (.randomValues _ _) hr hn hname h
  have key := began_draws hw (C43_generate hn hr hname h)
  intro i hm
  obtain ⟨y, hy, rfl⟩ := mem_index.1 hm
  rw [valueAt_row (hi ▸ hn) hy]
  refine key _ ?_
  rw [Frame.cellsOf_eq]
  exact List.mem_map.2 ⟨y, hy, rfl⟩

/-- the first two operations and the last three, with some in between that change neither data nor cells -/
theorem health_runs {cells own : Nat} {r : GenRef} {p : Population} {ah : Attribute} {mid : List (Op (World σ γ))}
    (hmid : ∀ d x l (u v : World σ γ), Runs mid d u x l v → x = d ∧ (∀ y ∈ l, y = []) ∧ v.pops = u.pops)
    (hp : w.pops[cells]? = some p) (hwf : Population.WF p) (hah : attributeOf p "HEALTH" ah)
    (hcols : data.cols = ["CELL_ID"]) (hr : Rect data) (hn : data.index.Nodup)
    (hid : ∀ i ∈ data.index, valueAt data i "CELL_ID" = .scalar i)
    (h : Runs (Ops.randomValues env r "NEW_HEALTH_LEVEL" none ::
      Ops.attrUpdate cells "HEALTH" "CELL_ID" "NEW_HEALTH_LEVEL" :: (mid ++
      [Ops.timestamp env "TIME" true fmt, Ops.fieldLogger "cell_status" ["TIME", "CELL_ID", "NEW_HEALTH_LEVEL"] [],
       Ops.maybeBackToDefault env own])) data w out ls w') :
    ∃ tbl p' ah', HealthRun env cells r data w w' p ah ls tbl p' ah' := by
  cases h with
  | @cons _ _ _ d1 _ _ w1 _ l1 _ h1 h =>
  cases h with
  | @cons _ _ _ d2 _ _ w2 _ l2 _ h2 h =>
  obtain ⟨d3, w3, la, lb, hm, h', rfl⟩ := runs_split (a := mid) h
  clear h
  obtain ⟨rfl, hquiet, p3⟩ := hmid _ _ _ _ _ hm
  cases h' with
  | @cons _ _ _ d4 _ _ w4 _ l4 _ h4 h =>
  cases h with
  | @cons _ _ _ d5 _ _ w5 _ l5 _ h5 h =>
  cases h with
  | @cons _ _ _ d6 _ _ w6 _ l6 _ h6 h =>
  cases h
  have hdr := fun g => drawn_field (g := g) hr hn (by rw [hcols]; decide) h1
  obtain ⟨rfl, g1, i1⟩ := grows_adder (.randomValues _ _) hr hn (by rw [hcols]; decide) h1
  have p1 : w1.pops = w.pops := columnAdder_pops (env := env) (.randomValues _ _) h1
  have c1 : d1.cols = ["CELL_ID", "NEW_HEALTH_LEVEL"] := by rw [g1.cols, hcols]; rfl
  obtain ⟨rfl, rfl, -, k2, -, -, p', ah', q1, q2, q3, q4, q5, q6⟩ :=
    attrUpdate_ok (by rw [p1]; exact hp) hwf hah g1.nodup h2
  obtain ⟨rfl, g4, i4⟩ := grows_adder (.timestamp true fmt) g1.rect g1.nodup (by rw [c1]; decide) h4
  have p4 : w4.pops = w3.pops := columnAdder_pops (env := env) (.timestamp true fmt) h4
  obtain ⟨rfl, rfl, tbl, rfl, e1, e2⟩ := logged_rows (by simp) g4.nodup h5
  obtain ⟨rfl, rfl⟩ := effect_same (env := env) (.maybeBackToDefault _) h6
  have hpops : ∀ k : Nat, w'.pops[k]? = w2.pops[k]? := fun k => by
    rw [Snd.KeepsPop.maybeBack (env := env) out _ _ _ h6, p4, p3]
  have hidx : tbl.index = data.index := by rw [e1, i4, i1]
  have hrow : ∀ x ∈ tbl.rows, x.idx ∈ out.index := fun x hx => by
    rw [← e1]
    exact List.mem_map.2 ⟨x, hx, rfl⟩
  have hown : ∀ x ∈ tbl.rows, cell tbl x "CELL_ID" = .scalar x.idx := fun x hx => by
    rw [e2 x hx _ (by decide), (g1.trans g4).kept _ (hrow x hx) _ (by rw [hcols]; decide)]
    exact hid _ ((g1.trans g4).labels _ (hrow x hx))
  have hlev : ∀ x ∈ tbl.rows, cell tbl x "NEW_HEALTH_LEVEL" = valueAt d3 x.idx "NEW_HEALTH_LEVEL" := fun x hx => by
    rw [e2 x hx _ (by decide), g4.kept _ (hrow x hx) _ (by rw [c1]; decide)]
  have hla : ∀ id, la.filterMap (·.get? id) = [] := by
    intro id
    rw [List.filterMap_eq_nil_iff]
    intro y hy
    rw [hquiet y hy]
    rfl
  have hd3 : ∀ i ∈ d3.index, valueAt d3 i "CELL_ID" = .scalar i := fun i hi => by
    rw [g1.kept i hi _ (by rw [hcols]; decide)]
    exact hid i (g1.labels i hi)
  refine ⟨tbl, p', ah', ?_, ?_, hidx, hown, fun g hg x hx => ?_, fun k hk => ?_, ?_, q4, fun s c => ?_⟩
  · simp [List.filterMap_cons, List.filterMap_append, Dict.get?, hla]
  · intro id hid'
    simp [List.filterMap_cons, List.filterMap_append, Dict.get?, Ne.symm hid', hla]
  · rw [hlev x hx]
    exact hdr g hg _ (by rw [← i4]; exact hrow x hx)
  · rw [hpops, k2 k hk, p1]
  · rw [hpops]; exact q1
  · rw [q6]
    constructor
    · rintro (⟨i, hi, a1, a2⟩ | ⟨a1, a2⟩)
      · rw [hd3 i hi] at a1
        injection a1 with a1
        subst a1
        have : i ∈ tbl.index := by rw [hidx, ← i1]; exact hi
        obtain ⟨x, hx, rfl⟩ := mem_index.1 this
        exact .inl ⟨x, hx, rfl, by rw [hlev x hx]; exact a2⟩
      · exact .inr ⟨fun hs => a1 s (by rw [i1]; exact hs) (hd3 s (by rw [i1]; exact hs)), a2⟩
    · rintro (⟨x, hx, rfl, a2⟩ | ⟨a1, a2⟩)
      · have hi : x.idx ∈ d3.index := by rw [← i4]; exact hrow x hx
        exact .inl ⟨x.idx, hi, hd3 _ hi, by rw [← hlev x hx]; exact a2⟩
      · refine .inr ⟨fun i hi e => ?_, a2⟩
        rw [hd3 i hi] at e
        injection e with e
        subst e
        exact a1 (by rw [← i1]; exact hi)

end Cdr
end Trumania
