import Verif.Proofs.ShopPlay
import Verif.Props.CdrTrigger

/-! Helper lemmas: what the purchases of step 5 of examples/tutorial/example2.py do to the story of the restocks. -/

namespace Trumania
namespace Shop
open Spec World Cdr
variable {σ : Type} {env : Env σ (AnyGen σ)} {w w' : World σ (AnyGen σ)} {data out : Frame} {ls : List Logs}
  {vols poss : List Val} {sc : Scene}

/-- What the purchases of the rows of `tbl` do to the timers of the restocks: the trigger answers once for each row,
having seen the stock of the point of sale after the purchases. -/
structure Prompted (env : Env σ (AnyGen σ)) (t : Nat) (o : Orders) (w w' : World σ (AnyGen σ)) (tbl : Frame)
    (answer : Val → Cell) (s s' : Story σ) : Prop where
  same : SameStatic s s'
  replies : ∀ g, Began env w (.ref t) g → ∀ r ∈ tbl.rows, ∀ pos, cell tbl r "POS_ID" = .scalar pos →
    Replies env g (.num (held o w' 0 pos : Rat)) (answer r.idx)
  prompt : ∀ pos, pos ≠ .na → (∃ r ∈ tbl.rows, cell tbl r "POS_ID" = .scalar pos ∧ answer r.idx = .bool true) →
    timerOf s' pos = some (some 0)
  kept : ∀ pos, pos = .na ∨ (∀ r ∈ tbl.rows, cell tbl r "POS_ID" = .scalar pos → answer r.idx ≠ .bool true) →
    timerOf s' pos = timerOf s pos

theorem trigger_core {t : Nat} {tbl : Frame} {s : Story σ} {o : Orders} (hok : StocksOk env stocks w) (hr : Rect tbl)
    (hn : tbl.index.Nodup) (hc : tbl.cols = ["CUST_ID", "BUYER_FIRST_NAME", "BUYER_LAST_NAME", "POS_ID", "POS_NAME",
      "BOUGHT_ITEM_ID"]) (hpos : ∀ r ∈ tbl.rows, ∃ p, cell tbl r "POS_ID" = .scalar p) (hs : StillAs 0 s w)
    (h : Runs (triggerOps env 0 0 (.ref t)) tbl w out ls w') :
    ∃ s' answer, w'.stories[0]? = some s' ∧ Prompted env t o w w tbl answer s s' := by
  rw [triggerOps] at h
  obtain ⟨d1, w1, l1, ls1, h1, k1, rfl⟩ := Snd.cons_runs h
  obtain ⟨d2, w2, l2, ls2, h2, k2, rfl⟩ := Snd.cons_runs k1
  obtain ⟨d3, w3, l3, ls3, h3, k3, rfl⟩ := Snd.cons_runs k2
  cases k3
  have hposv : ∀ i ∈ tbl.index, ∃ p, valueAt tbl i "POS_ID" = .scalar p := by
    intro i hi
    obtain ⟨r, hr', rfl⟩ := mem_index.1 hi
    rw [valueAt_row hn hr']
    exact hpos r hr'
  obtain ⟨rfl, rfl, g1, i1, hsize⟩ := grows_size (S := stocks) (by simp) hok hr hn (by rw [hc]; decide) hposv h1 o
  have hsh : "SHOULD_RESTOCK" ∉ d1.cols := by rw [g1.cols, hc]; decide
  obtain ⟨-, g2, i2⟩ := grows_adder (env := env) (.randomValuesFromField _ _) g1.rect g1.nodup hsh h2
  obtain ⟨s1, j1, j2, j3⟩ := still_builtIn (env := env) (b := 0) (ops := [_]) (fun op hop => by
    rw [List.mem_singleton] at hop
    subst hop
    exact .adder (.randomValuesFromField _ _)) hs (.cons h2 (.nil _ _))
  obtain ⟨rfl, -, s2, rfl, f2, f3, f4, f5, -⟩ := C94_force_act_next j1 h3
  have hidx : out.index = tbl.index := i2.trans i1
  -- a row of the table and its cells at the end
  have hat : ∀ r ∈ tbl.rows, ∀ pos, cell tbl r "POS_ID" = .scalar pos →
      valueAt out r.idx "POS_ID" = .scalar pos ∧ valueAt d1 r.idx "POS_STOCK" = .num (held o w1 0 pos : Rat) := by
    intro r hr' pos hp
    have hm : r.idx ∈ tbl.index := mem_index.2 ⟨r, hr', rfl⟩
    have hv : valueAt tbl r.idx "POS_ID" = .scalar pos := by rw [valueAt_row hn hr']; exact hp
    refine ⟨?_, hsize _ (i1.symm ▸ hm) _ hv⟩
    rw [g2.kept _ (hidx.symm ▸ hm) _ (by rw [g1.cols, hc]; decide), g1.kept _ (i1.symm ▸ hm) _ (by rw [hc]; decide)]
    exact hv
  have hnames : ∀ pos, Names out "POS_ID" (some "SHOULD_RESTOCK") pos ↔ pos ≠ .na ∧ ∃ r ∈ tbl.rows,
      cell tbl r "POS_ID" = .scalar pos ∧ valueAt out r.idx "SHOULD_RESTOCK" = .bool true := by
    intro pos
    rw [Names]
    refine and_congr_right fun _ => ?_
    constructor
    · rintro ⟨x, hx, hp, hpass⟩
      have hm : x.idx ∈ tbl.index := hidx ▸ mem_index.2 ⟨x, hx, rfl⟩
      obtain ⟨r, hr', e⟩ := mem_index.1 hm
      refine ⟨r, hr', ?_, ?_⟩
      · obtain ⟨p, hp'⟩ := hpos r hr'
        rw [hp', ← (hat r hr' p hp').1, e, valueAt_row g2.nodup hx]
        first | exact hpass | exact hp
      · rw [e, valueAt_row g2.nodup hx]
        first | exact hp _ rfl | exact hpass _ rfl
    · rintro ⟨r, hr', hp, hv⟩
      have hm : r.idx ∈ out.index := hidx.symm ▸ mem_index.2 ⟨r, hr', rfl⟩
      obtain ⟨x, hx, e⟩ := mem_index.1 hm
      have h1 := (hat r hr' pos hp).1
      rw [← e, valueAt_row g2.nodup hx] at h1 hv
      refine ⟨x, hx, ?_⟩
      constructor
      · first | exact h1 | (intro c hc'; cases hc'; exact hv)
      · first | exact h1 | (intro c hc'; cases hc'; exact hv)
  have hset : (w2.stories.set 0 s2)[0]? = some s2 := (set_get j1).trans (by rw [if_pos rfl])
  refine ⟨s2, fun i => valueAt out i "SHOULD_RESTOCK", hset, ?_, ?_, ?_, ?_⟩
  · exact j2.trans ⟨by rw [f2], f3⟩
  · intro g hg r hr' pos hp
    have hm : r.idx ∈ out.index := hidx.symm ▸ mem_index.2 ⟨r, hr', rfl⟩
    have := answered_field (g := g) g1.rect g1.nodup hsh h2 hg _ hm
    rw [(hat r hr' pos hp).2] at this
    exact this
  · intro pos hna hex
    exact (f4 pos ((hnames pos).2 ⟨hna, hex⟩)).2.2
  · intro pos hno
    rw [(f5 pos fun hc' => ?_).2, j3]
    obtain ⟨hna, r, hr', hp, hv⟩ := (hnames pos).1 hc'
    exact hno.elim hna fun hall => hall r hr' hp hv

/-- the story of the restocks when another story is executed in step 5 -/
theorem prompted_exec (hsem : env.sem = AnyGen.sem env.R) (hd : sc.Distinct)
    (hvols : ∀ x ∈ vols, ∃ n : Nat, x = .num (n : Rat)) {t : Nat} (htr : sc.trigger = some t)
    (hw : Plays env sc vols poss w) {i : Nat} {ops : List (Op (World σ (AnyGen σ)))} {logs : Logs}
    (hi : (sc.chains env)[i]? = some ops) (h0 : i ≠ 0) (h : World.execute env ops i w = .ok logs w') (o : Orders)
    {s : Story σ} (hs : w.stories[0]? = some s) : ∃ s', w'.stories[0]? = some s' ∧ SameStatic s s' ∧
      ((tablesOf "purchases" logs = [] ∧ ∀ id, timerOf s' id = timerOf s id) ∨
        ∃ tbl answer, tablesOf "purchases" logs = [tbl] ∧ Prompted env t o w w' tbl answer s s') := by
  have hb := chains_builtIn hi
  have hit : i ≠ 0 := h0
  obtain ⟨si, w1, s1, s'', hsi, ⟨s2, hs2, hafter⟩, -, hst, hrest, -⟩ := execute_ok h
  rw [hsi] at hs2
  cases hs2
  have hs0 : StillAs 0 s (started w i si) := ⟨s, by rw [started_get_ne hit]; exact hs, .refl _, fun _ => rfl⟩
  have hend : ∀ {k}, w1.stories[0]? = some k → w'.stories[0]? = some k := fun k1 => by
    rw [hst, List.getElem?_set_ne hit]
    exact k1
  rcases hafter with ⟨-, rfl, rfl⟩ | ⟨-, last, h5⟩
  · obtain ⟨k, k1, k2, k3⟩ := hs0
    exact ⟨k, hend k1, k2, .inl ⟨rfl, k3⟩⟩
  obtain ⟨hwf, ls, hr, hl⟩ := (chain_sequential env.logSet _ _ last _ w1).1 logs h5
  have hT : ∀ id, tablesOf id logs = (foldVals Frame.concat (tabs ls id)).toList := fun id => by
    rw [tablesOf_dict hwf, hl]
  by_cases h2 : i = 2
  · subst h2
    have hfield : ["POS_ID", "POS_ID", "CUST_ID"][2]? = some si.idField := by
      rw [← hw.fields, List.getElem?_map, hsi]
      rfl
    have hn := hw.ids si (List.mem_of_getElem? hsi)
    have hf : si.idField = "CUST_ID" := (Option.some.inj hfield).symm
    obtain ⟨n1, n2, n3⟩ := acting_names hn hf
    obtain ⟨cp, cr, hch⟩ := hw.choice
    obtain ⟨a, ha⟩ := hw.items
    rw [Scene.chains, htr] at hi
    cases hi
    have hst2 : SameStories w (started w 2 si) := sameStories_set hsi ⟨rfl, rfl⟩
    have hnt := hst2.noTimer hw.own
    obtain ⟨tbl, e1, e2, e3, e4, e5, km, um, kn, e6, e7, e8, e9, e10, e11⟩ := purchase_effect (w := started w 2 si)
      (o := o) (vols := vols) (idle_trigger fun e => hd.trigger (by rw [htr, e])) hsem hd.choice hch hw.wf hw.stocks
      ha hnt (by rw [hf]) n1 n2 n3 hr
    obtain ⟨hnd, hrow⟩ := e1.sales tbl (by rw [e2]; simp)
    have hstill := still_builtIn (env := env) (b := 0) purchase_builtIn hs0 e6
    obtain ⟨s', answer, k1, k2⟩ := trigger_core (o := o) e8 e10 hnd e11 (fun r hr' => by
      obtain ⟨-, -, -, pos, -, hp, -⟩ := hrow r hr'
      exact ⟨pos, hp⟩) hstill e7
    refine ⟨s', hend k1, k2.same, .inr ⟨tbl, answer, ?_, k2.same, fun g hg r hr' pos hp => ?_, k2.prompt, k2.kept⟩⟩
    · rw [hT, e2]
      rfl
    · have := k2.replies g (began_runs (F := fun _ => True) (Z := fun _ => True) purchase_builtIn e6 hg) r hr' pos hp
      rw [held_eq, stockAt_rels hrest.rels, stockAt_rels e9, ← held_eq]
      exact this
  · obtain ⟨k, k1, k2, k3⟩ := still_builtIn (env := env) (b := 0) (chain_builtIn hi (.inr h2)) hs0 hr
    obtain ⟨a, ha⟩ := hw.items
    obtain ⟨s2, given, -, hh⟩ := happened_of hsem hd hvols hw hi h o ha
    refine ⟨k, hend k1, k2, .inl ⟨hh.other _ ?_, k3⟩⟩
    match i, h0, h2 with
    | 1, _, _ => decide
    | k + 3, _, _ => exact (by decide : "purchases" ≠ "")

end Shop
end Trumania
