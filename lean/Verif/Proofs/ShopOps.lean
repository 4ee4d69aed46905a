import Verif.Model.Shop
import Verif.Proofs.CdrTopups
import Verif.Proofs.CdrTrigger
import Verif.Props.SndSims
import Verif.Props.Replies
import Verif.Props.Batches

/-! What one execution of each story of examples/tutorial/example2.py does to the stocks and the logs. -/

namespace Trumania
namespace Shop
open Spec World Cdr
variable {σ : Type} {env : Env σ (AnyGen σ)} {data out : Frame} {ls : List Logs} {w w' : World σ (AnyGen σ)}

/-- the stocks of the points of sale and of the customers -/
abbrev stocks : List Nat := [0, 1]

/-! ### Generators -/

/-- a choice remains a choice between the same values -/
theorem descends_choice (hsem : env.sem = AnyGen.sem env.R) {a : List Val} {p : Option (List Rat)} {s : σ}
    {x : AnyGen σ} (h : Descends env (.choice a p s) x) : ∃ s', x = .choice a p s' := by
  induction h with
  | refl => exact ⟨s, rfl⟩
  | generate _ e ih =>
    obtain ⟨s', rfl⟩ := ih
    rw [hsem] at e
    change AnyGen.generate env.R (.choice a p s') _ = _ at e
    rw [AnyGen.generate] at e
    split at e
    · obtain ⟨⟨v, s2⟩, -, e⟩ := bind_eq_ok.1 e
      cases e
      exact ⟨s2, rfl⟩
    · cases e
  | observe _ e ih =>
    obtain ⟨s', rfl⟩ := ih
    rw [hsem] at e
    cases e
  | tick _ ih =>
    obtain ⟨s', rfl⟩ := ih
    rw [hsem]
    exact ⟨s', rfl⟩

theorem fancy_mem {α : Type} {l : List α} {idx : List Nat} {v : List α} (h : fancy l idx = .ok v) :
    ∀ x ∈ v, x ∈ l := by
  obtain ⟨-, rfl⟩ := fancy_eq_ok h
  intro x hx
  obtain ⟨i, -, hi⟩ := List.mem_filterMap.1 hx
  exact List.mem_of_getElem? hi

/-- what a choice gives is among its values -/
theorem began_choice (hsem : env.sem = AnyGen.sem env.R) {a : List Val} {p : Option (List Rat)} {s : σ}
    {r : GenRef} {n : Rat} {cells : List Cell} (hw : Began env w r (.choice a p s))
    (h : World.generate env r n w = .ok cells w') : ∀ c ∈ cells, ∃ v ∈ a, c = .scalar v := by
  obtain ⟨j, x, rfl, hx, hd⟩ := hw
  obtain ⟨s', rfl⟩ := descends_choice hsem hd
  obtain ⟨g, g', hg, e, -⟩ := generate_ref_ok.1 h
  rw [hx] at hg
  cases hg
  rw [hsem] at e
  change AnyGen.generate env.R (.choice a p s') _ = _ at e
  rw [AnyGen.generate] at e
  split at e
  · obtain ⟨⟨v, s2⟩, h1, e⟩ := bind_eq_ok.1 e
    cases e
    obtain ⟨idx, -, h2⟩ := AnyGen.choiceGenerate_ok.1 h1
    intro c hc
    obtain ⟨x, hx, rfl⟩ := List.mem_map.1 hc
    exact ⟨x, fancy_mem h2 x hx, rfl⟩
  · cases e

/-- a bulk of ids for each of some numbers -/
theorem bulk_seq (hsem : env.sem = AnyGen.sem env.R) {i : Nat} {a : SeqGen} {ns : List Nat} {cells : List Cell}
    (hw : w.gens[i]? = some (.seq a))
    (h : World.observe env (.bulk (.ref i)) (ns.map fun n : Nat => Cell.num (n : Rat)) w = .ok cells w') :
    ∃ lists : List (List Val), cells = lists.map Cell.list ∧ lists.map List.length = ns ∧
      lists.flatten = Spec.idsFrom a ns.sum ∧
      w'.gens[i]? = some (.seq { a with counter := a.counter + (ns.sum : Nat) }) := by
  rw [World.observe, World.call] at h
  induction ns generalizing a w cells with
  | nil =>
    rw [List.map_nil, World.bulkLoop, Act.pure_eq_ok] at h
    obtain ⟨rfl, rfl⟩ := h
    exact ⟨[], rfl, rfl, by simp [Spec.idsFrom], by simpa using hw⟩
  | cons n ns ih =>
    rw [List.map_cons, World.bulkLoop] at h
    obtain ⟨q, w1, h1, h⟩ := Act.bind_eq_ok.1 h
    obtain ⟨hq, rfl⟩ := Act.ofPy_eq_ok.1 h1
    cases hq
    obtain ⟨v, w2, h2, h⟩ := Act.bind_eq_ok.1 h
    obtain ⟨vals, w3, h3, h⟩ := Act.bind_eq_ok.1 h
    obtain ⟨hv, rfl⟩ := Act.ofPy_eq_ok.1 h3
    obtain ⟨rest, w4, h4, h⟩ := Act.bind_eq_ok.1 h
    obtain ⟨rfl, rfl⟩ := Act.pure_eq_ok.1 h
    obtain ⟨g, g', hg, e, rfl⟩ := generate_ref_ok.1 h2
    rw [hw] at hg
    cases hg
    obtain ⟨rfl, rfl⟩ := Snd.seq_drawn hsem e hv
    have hlt := (List.getElem?_eq_some_iff.1 hw).1
    obtain ⟨lists, rfl, k1, k2, k3⟩ := ih (a := { a with counter := a.counter + n })
      (by rw [World.gens]; exact List.getElem?_set_self hlt) h4
    refine ⟨Spec.idsFrom a n :: lists, rfl, ?_, ?_, ?_⟩
    · rw [List.map_cons, k1]
      simp [Spec.idsFrom]
    · rw [List.flatten_cons, k2, List.sum_cons, idsFrom_append]
    · rw [k3]
      simp [Int.add_assoc]

/-! ### Restocks -/

/-- the values of an added column, by label -/
theorem listIn_added {name : String} {values : List Cell} {d e : Frame} (hn : d.index.Nodup)
    (h : AddsColumn name values d e) : e.index.map (fun i => valueAt e i name) = values := by
  rw [← h.added, Frame.cellsOf_eq, Frame.index, List.map_map]
  refine List.map_congr_left fun x hx => ?_
  exact valueAt_row (by rw [h.index]; exact hn) hx name

/-- What the draw of the volumes, the draw of the items and their addition to the stocks do: `items` are those that
each point of sale gets, from the ids that `a` gives. -/
structure Restocked (S : List Nat) (o : Orders) (w w' : World σ (AnyGen σ)) (a : SeqGen) (vols : List Val) (data out : Frame)
    (items : Val → List Val) : Prop where
  grows : Grows ["RESTOCK_VOLUME", "NEW_ITEM_IDS"] data out
  index : out.index = data.index
  volume : ∀ i ∈ out.index, valueAt out i "RESTOCK_VOLUME" = .num ((items i).length : Rat) ∧
    .num ((items i).length : Rat) ∈ vols
  ok : StocksOk env S w'
  stock : (stockAt o w' 0).Perm (stockAt o w 0 ++ out.index.flatMap fun i => (items i).map fun t => (i, t))
  other : (stockAt o w' 1).Perm (stockAt o w 1)
  ids : out.index.flatMap items = Spec.idsFrom a (out.index.map fun i => (items i).length).sum
  gen : w'.gens[4]? = some (.seq { a with counter := a.counter + ((out.index.map fun i => (items i).length).sum : Nat) })
  pops : w'.pops = w.pops

theorem restock_core {S : List Nat} (hS : 0 ∈ S) (hsem : env.sem = AnyGen.sem env.R) {v : Nat} (hv : v ≠ 4) {vols : List Val}
    (hvols : ∀ x ∈ vols, ∃ n : Nat, x = .num (n : Rat)) {p : Option (List Rat)} {s : σ} {a : SeqGen}
    (hbegan : Began env w (.ref v) (.choice vols p s)) (hgen : w.gens[4]? = some (.seq a))
    (hok : StocksOk env S w) (o : Orders) (hpos : "POS_ID" ∈ data.cols)
    (hnew : "RESTOCK_VOLUME" ∉ data.cols ∧ "NEW_ITEM_IDS" ∉ data.cols) (hr : Rect data) (hn : data.index.Nodup)
    (hid : ∀ i ∈ data.index, valueAt data i "POS_ID" = .scalar i)
    (h : Runs [Ops.randomValues env (.ref v) "RESTOCK_VOLUME" none,
      Ops.randomValuesFromField env (.bulk (.ref 4)) "NEW_ITEM_IDS" "RESTOCK_VOLUME",
      Ops.relAddGrouped env 0 "POS_ID" "NEW_ITEM_IDS"] data w out ls w') :
    ls = [[], [], []] ∧ ∃ items, Restocked (env := env) S o w w' a vols data out items := by
  cases h with
  | @cons _ _ _ d1 _ _ w1 _ l1 _ h1 h =>
  cases h with
  | @cons _ _ _ d2 _ _ w2 _ l2 _ h2 h =>
  cases h with
  | @cons _ _ _ d3 _ _ w3 _ l3 _ h3 h =>
  cases h
  obtain ⟨-, g1, i1⟩ := grows_adder (.randomValues _ _) hr hn hnew.1 h1
  obtain ⟨rfl, values, ad1, e1⟩ := C91_random_values hn hr hnew.1 h1
  have c1 : d1.cols = data.cols ++ ["RESTOCK_VOLUME"] := g1.cols
  have new2 : "NEW_ITEM_IDS" ∉ d1.cols := by
    rw [c1, List.mem_append]
    exact fun hm => hm.elim hnew.2 (by decide)
  obtain ⟨-, g2, i2⟩ := grows_adder (env := env) (.randomValuesFromField _ _) g1.rect g1.nodup new2 h2
  obtain ⟨rfl, lists, ad2, e2⟩ := C91_random_values_from_field g1.nodup g1.rect new2 h2
  -- the volumes
  have hvals := began_choice hsem hbegan e1
  have hnat : ∀ c ∈ values, ∃ n : Nat, c = .num (n : Rat) ∧ .num (n : Rat) ∈ vols := by
    intro c hc
    obtain ⟨x, hx, rfl⟩ := hvals c hc
    obtain ⟨n, rfl⟩ := hvols x hx
    exact ⟨n, rfl, hx⟩
  obtain ⟨ns, rfl, hns⟩ : ∃ ns : List Nat, values = ns.map (fun n : Nat => Cell.num (n : Rat)) ∧
      ∀ n ∈ ns, Val.num (n : Rat) ∈ vols := by
    clear ad1 e1 hvals
    induction values with
    | nil => exact ⟨[], rfl, by simp⟩
    | cons c l ih =>
      obtain ⟨n, rfl, hm⟩ := hnat c (by simp)
      obtain ⟨ns, rfl, k⟩ := ih fun c hc => hnat c (by simp [hc])
      exact ⟨n :: ns, rfl, by simpa using ⟨hm, k⟩⟩
  -- the items
  have hgen1 : w1.gens[4]? = some (.seq a) := by
    obtain ⟨g, g', -, -, rfl⟩ := generate_ref_ok.1 e1
    rw [World.gens, List.getElem?_set_ne hv]
    exact hgen
  rw [ad1.added] at e2
  obtain ⟨items, rfl, k1, k2, k3⟩ := bulk_seq hsem hgen1 e2
  -- their addition
  have r2 : w2.rels = w.rels := (columnAdder_rels (env := env) (.randomValuesFromField _ _) h2).trans
    (columnAdder_rels (env := env) (.randomValues _ _) h1)
  have p2 : w2.pops = w.pops := (columnAdder_pops (env := env) (.randomValuesFromField _ _) h2).trans
    (columnAdder_pops (env := env) (.randomValues _ _) h1)
  obtain ⟨ok2, s2⟩ := (RelsKept.of_eq (S := (· ∈ S)) r2).stockAt hok
  obtain ⟨r, hr0, hreach⟩ := ok2 0 hS
  obtain ⟨rfl, rfl, r', rfl, hreach', hput⟩ := C93_add_grouped hr0 hreach o o h3
  have g := g1.trans g2
  have hidx : out.index = data.index := i2.trans i1
  have hown : ∀ i ∈ out.index, valueAt out i "POS_ID" = .scalar i := fun i hi => by
    rw [g.kept i hi _ hpos]
    exact hid i (g.labels i hi)
  have hlists := listIn_added g1.nodup ad2
  have hvol := listIn_added hn ad1
  have hitems : items = out.index.map fun i => listIn (valueAt out i "NEW_ITEM_IDS") := by
    have := congrArg (List.map listIn) hlists
    rw [List.map_map, List.map_map] at this
    rw [show (fun i => listIn (valueAt out i "NEW_ITEM_IDS")) = listIn ∘ fun i => valueAt out i "NEW_ITEM_IDS" from rfl,
      this]
    simp [listIn, Function.comp_def]
  have hsum : (out.index.map fun i => (listIn (valueAt out i "NEW_ITEM_IDS")).length).sum = ns.sum := by
    rw [← k1, hitems, List.map_map]
    rfl
  refine ⟨rfl, fun i => listIn (valueAt out i "NEW_ITEM_IDS"), ⟨g, hidx, fun i hi => ?_, ?_, ?_, ?_, ?_, ?_, p2⟩⟩
  · have hv' : valueAt out i "RESTOCK_VOLUME" = valueAt d1 i "RESTOCK_VOLUME" :=
      g2.kept i hi _ (by rw [c1]; simp)
    have hlen : d1.index.map (fun i => valueAt d1 i "RESTOCK_VOLUME") =
        d1.index.map fun i => Cell.num ((listIn (valueAt out i "NEW_ITEM_IDS")).length : Rat) := by
      rw [hvol, ← k1, hitems, List.map_map, List.map_map, i2]
      rfl
    have hi1 := g2.labels i hi
    have e := List.map_inj_left.1 hlen i hi1
    refine ⟨hv'.trans e, ?_⟩
    have hm : Cell.num ((listIn (valueAt out i "NEW_ITEM_IDS")).length : Rat) ∈
        ns.map (fun n : Nat => Cell.num (n : Rat)) := by
      rw [← hvol, hlen]
      exact List.mem_map_of_mem hi1
    obtain ⟨n, hn1, hn2⟩ := List.mem_map.1 hm
    have := hns n hn1
    injection hn2 with hn2
    injection hn2 with hn2
    rw [← hn2]
    exact this
  · exact Snd.stocksOk_set ok2 hreach'
  · rw [stockAt_of (r := r') (List.getElem?_set_self (List.getElem?_eq_some_iff.1 hr0).1)]
    have e := hput.map fun x => (x.1, x.2.1)
    rw [List.map_append, ← stockAt_of hr0] at e
    refine e.trans (List.Perm.append (s2 o 0 hS) (.of_eq ?_))
    rw [List.map_flatMap, Frame.index, List.flatMap_map]
    refine List.flatMap_congr fun x hx => ?_
    rw [List.map_map]
    have hx' : x.idx ∈ out.index := mem_index.2 ⟨x, hx, rfl⟩
    have h1 := hown _ hx'
    rw [valueAt_row g.nodup hx] at h1 ⊢
    rw [h1]
    rfl
  · rw [Snd.stockAt_set (by decide)]
    rw [stockAt, stockAt, r2]
  · rw [hsum, ← k2, hitems, List.flatMap_def]
  · rw [hsum]
    exact k3

end Shop
end Trumania
