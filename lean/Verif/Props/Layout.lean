import Verif.Lemmas.Layout

/-!
# C138: fitting a container places what it contains tidily, in the smallest zone that allows it

# C139: the containers of the scene do not overlap
-/

namespace Verif.Layout
open Spec

variable {ι : Type} [DecidableEq ι]

/-! ## The zone -/

/-- The columns of a container, placed. -/
def columnsOf (box : ι → Box) (mw mh : ℚ) (l : List ι) : Columns :=
  let m := (sizes box mh l {} (fun _ => 0)).1
  { m with col := places mw m.keys mw m.col }

/-- The space between the nodes of a column, and above the first one. -/
def gapOf (box : ι → Box) (mh H : ℚ) (l : List ι) : Spacement → ℚ
  | .packedUp => mh
  | .packedDown => mh
  | .unpackedMax => (H - total box 0 l - 2 * mh) / (l.length - 1)
  | .unpackedRegular => (H - total box 0 l) / (l.length + 1)

def topOf (box : ι → Box) (mh H : ℚ) (l : List ι) : Spacement → ℚ
  | .packedUp => mh
  | .packedDown => mh + (H - (mh + total box mh l))
  | .unpackedMax => mh
  | .unpackedRegular => (H - total box 0 l) / (l.length + 1)

theorem columns_keys (box : ι → Box) (mw mh : ℚ) (l : List ι) (k : Nat) :
    k ∈ (columnsOf box mw mh l).keys ↔ ∃ a ∈ l, (box a).col = k := by
  simp [columnsOf, sizes_keys]

theorem columns_sorted (box : ι → Box) (mw mh : ℚ) (l : List ι) : (columnsOf box mw mh l).keys.Pairwise (· < ·) :=
  sizes_sorted _ _ _ _ _ List.Pairwise.nil

theorem sized_col (box : ι → Box) (mh : ℚ) (l : List ι) {k : Nat}
    (hk : k ∈ (sizes box mh l {} (fun _ => 0)).1.keys) :
    (sizes box mh l {} (fun _ => 0)).1.col k = grown box mh { h := mh } (inCol box k l) := by
  rw [sizes_col _ _ _ _ _ _ hk]
  simp [base]

theorem columns_col (box : ι → Box) (mw mh : ℚ) (l : List ι) {k : Nat} (hk : k ∈ (columnsOf box mw mh l).keys) :
    (columnsOf box mw mh l).col k
      = { grown box mh { h := mh } (inCol box k l) with x := ((columnsOf box mw mh l).col k).x } := by
  unfold columnsOf at hk ⊢
  dsimp only at hk ⊢
  rw [places_rest]
  rw [sized_col _ _ _ hk]

theorem columns_w (box : ι → Box) (mw mh : ℚ) (l : List ι) {a : ι} (ha : a ∈ l) :
    (box a).w ≤ ((columnsOf box mw mh l).col (box a).col).w := by
  rw [columns_col _ _ _ _ ((columns_keys ..).mpr ⟨a, ha, rfl⟩)]
  exact foldl_max_mem (fun a => (box a).w) _ _ (mem_inCol.mpr ⟨ha, rfl⟩)

theorem columns_w_nonneg (box : ι → Box) (mw mh : ℚ) (l : List ι) {k : Nat} (hk : k ∈ (columnsOf box mw mh l).keys) :
    0 ≤ ((columnsOf box mw mh l).col k).w := by
  rw [columns_col _ _ _ _ hk]
  exact foldl_max_ge (fun a => (box a).w) _ _

theorem columns_x {box : ι → Box} {mw : ℚ} (mh : ℚ) (l : List ι) (hmw : 0 ≤ mw) {k : Nat}
    (hk : k ∈ (columnsOf box mw mh l).keys) : mw ≤ ((columnsOf box mw mh l).col k).x := by
  refine places_ge mw hmw _ (columns_sorted box mw mh l) mw _ (fun j hj => ?_) k hk
  have := columns_w_nonneg box mw mh l hj
  unfold columnsOf at this
  dsimp only at this
  rwa [places_rest] at this

theorem columns_apart {box : ι → Box} {mw : ℚ} (mh : ℚ) (l : List ι) (hmw : 0 ≤ mw) {k j : Nat}
    (hk : k ∈ (columnsOf box mw mh l).keys) (hj : j ∈ (columnsOf box mw mh l).keys) (h : k < j) :
    ((columnsOf box mw mh l).col k).x + ((columnsOf box mw mh l).col k).w + mw ≤ ((columnsOf box mw mh l).col j).x := by
  have e : ∀ n, ((columnsOf box mw mh l).col n).w = ((sizes box mh l {} (fun _ => 0)).1.col n).w := by
    intro n
    unfold columnsOf
    dsimp only
    rw [places_rest]
  rw [e]
  refine places_apart mw hmw _ (columns_sorted box mw mh l) mw _ (fun n hn => ?_) k hk j hj h
  rw [← e]
  exact columns_w_nonneg box mw mh l hn

theorem columns_width {box : ι → Box} {mw : ℚ} (mh : ℚ) (l : List ι) (hmw : 0 ≤ mw) {k : Nat}
    (hk : k ∈ (columnsOf box mw mh l).keys) :
    ((columnsOf box mw mh l).col k).x + ((columnsOf box mw mh l).col k).w + mw ≤ width mw (columnsOf box mw mh l) := by
  unfold width
  split
  · rename_i h
    rw [List.getLast?_eq_none_iff] at h
    rw [h] at hk
    cases hk
  · rename_i j h
    have hj := List.mem_of_getLast? h
    by_cases e : k = j
    · subst e; exact le_refl _
    · have hlt : k < j := by
        obtain ⟨ys, hys⟩ := List.getLast?_eq_some_iff.mp h
        have hs := columns_sorted box mw mh l
        rw [hys, List.pairwise_append] at hs
        rw [hys, List.mem_append] at hk
        rcases hk with hk | hk
        · exact hs.2.2 k hk j List.mem_cons_self
        · exact absurd (List.mem_singleton.mp hk) e
      have h1 := columns_apart mh l hmw hk hj hlt
      have h2 := columns_w_nonneg box mw mh l hj
      linarith

theorem columns_height {box : ι → Box} (mw mh : ℚ) (l : List ι) {k : Nat} (hk : k ∈ (columnsOf box mw mh l).keys) :
    mh + total box mh (inCol box k l) ≤ height (columnsOf box mw mh l) := by
  have := foldl_max_mem (fun k => ((columnsOf box mw mh l).col k).h) _ 0 hk
  rw [columns_col _ _ _ _ hk] at this
  exact this

/-! ## The places -/

theorem pos_keep {pen W H : ℚ} (hpen : 0 ≤ pen) {b : Box} {p : ℚ × ℚ} (h1 : 0 ≤ p.1) (h2 : p.1 + b.w ≤ W) (h3 : 0 ≤ p.2)
    (h4 : p.2 + b.h ≤ H) : keep pen W H b p = p := by
  unfold keep
  rw [max_eq_left (by linarith), max_eq_left (by linarith), min_eq_right (by linarith), min_eq_right (by linarith)]

/-- What a shown container places, before the bounds. -/
theorem fit_raw (items : List ι) (hn : items.Nodup) (visible : ι → Bool) (box : ι → Box) (mw mh pen : ℚ) (s : Spacement)
    (z : Zone ι) (l : List ι) (hl : l = items.filter visible) (H : ℚ) (hH : H = height (columnsOf box mw mh l)) :
    (fit true items visible box mw mh pen s z).w = width mw (columnsOf box mw mh l) ∧
    (fit true items visible box mw mh pen s z).h = H ∧
    ∃ raw : ι → ℚ × ℚ,
      (∀ a ∈ l, (fit true items visible box mw mh pen s z).pos a
        = keep pen (width mw (columnsOf box mw mh l)) H (box a) (raw a)) ∧
      (∀ a ∈ l, (raw a).1 = ((columnsOf box mw mh l).col (box a).col).x) ∧
      ∀ k ∈ (columnsOf box mw mh l).keys,
        Spaced box (fun a => (raw a).2) (gapOf box mh H (inCol box k l) s) (topOf box mh H (inCol box k l) s) (inCol box k l) := by
  have hn' : l.Nodup := hl ▸ hn.filter _
  have hmem : ∀ a ∈ l, (box a).col ∈ (columnsOf box mw mh l).keys := fun a ha => (columns_keys ..).mpr ⟨a, ha, rfl⟩
  have hsp : ∀ k, Spaced box (sizes box mh l {} (fun _ => 0)).2 mh mh (inCol box k l) := by
    intro k
    have := sizes_spaced box mh l hn' {} (fun _ => 0) k
    simpa [base] using this
  have hsum : ∀ k ∈ (columnsOf box mw mh l).keys, ((columnsOf box mw mh l).col k).h
      - ((inCol box k l).length + 1) * mh = total box 0 (inCol box k l) := by
    intro k hk
    rw [columns_col _ _ _ _ hk]
    simp only [grown]
    rw [total_gap box mh 0]
    ring
  have hnum : ∀ k ∈ (columnsOf box mw mh l).keys, ((columnsOf box mw mh l).col k).n = (inCol box k l).length := by
    intro k hk
    rw [columns_col _ _ _ _ hk]
    simp [grown]
  unfold fit
  rw [if_pos rfl]
  refine ⟨by rw [← hl]; rfl, by rw [← hl, hH]; rfl, ?_⟩
  rw [← hl]
  change ∃ raw : ι → ℚ × ℚ, (∀ a ∈ l, (match s with
      | .packedUp => l.foldl (fun pos a => set pos a (keep pen (width mw (columnsOf box mw mh l))
          (height (columnsOf box mw mh l)) (box a)
          (((columnsOf box mw mh l).col (box a).col).x, (sizes box mh l {} (fun _ => 0)).2 a))) z.pos
      | .packedDown => l.foldl (fun pos a => set pos a (keep pen (width mw (columnsOf box mw mh l))
          (height (columnsOf box mw mh l)) (box a)
          ((((columnsOf box mw mh l).each fun c => { c with shift := height (columnsOf box mw mh l) - c.h }).col (box a).col).x,
          (sizes box mh l {} (fun _ => 0)).2 a
          + (((columnsOf box mw mh l).each fun c => { c with shift := height (columnsOf box mw mh l) - c.h }).col
            (box a).col).shift))) z.pos
      | .unpackedMax => stack box (fun a => keep pen (width mw (columnsOf box mw mh l)) (height (columnsOf box mw mh l)) (box a)) l
          ((columnsOf box mw mh l).each fun c => { c with
            margin := (height (columnsOf box mw mh l) - (c.h - (c.n + 1) * mh) - 2 * mh) / (c.n - 1), h := mh }).col z.pos
      | .unpackedRegular => stack box
          (fun a => keep pen (width mw (columnsOf box mw mh l)) (height (columnsOf box mw mh l)) (box a)) l
          ((columnsOf box mw mh l).each fun c => { c with
            margin := (height (columnsOf box mw mh l) - (c.h - (c.n + 1) * mh)) / (c.n + 1),
            h := (height (columnsOf box mw mh l) - (c.h - (c.n + 1) * mh)) / (c.n + 1) }).col z.pos) a
        = keep pen (width mw (columnsOf box mw mh l)) H (box a) (raw a)) ∧ _
  rw [← hH]
  cases s with
  | packedUp =>
    refine ⟨fun a => (((columnsOf box mw mh l).col (box a).col).x, (sizes box mh l {} (fun _ => 0)).2 a), ?_, ?_, ?_⟩
    · intro a ha
      dsimp only
      rw [foldl_set _ hn', if_pos ha]
    · intro a ha; rfl
    · intro k hk
      exact hsp k
  | packedDown =>
    refine ⟨fun a => (((columnsOf box mw mh l).col (box a).col).x, (sizes box mh l {} (fun _ => 0)).2 a
      + (H - ((columnsOf box mw mh l).col (box a).col).h)), ?_, ?_, ?_⟩
    · intro a ha
      dsimp only
      rw [foldl_set _ hn', if_pos ha]
      simp only [Columns.each, hmem a ha, if_true]
    · intro a ha; rfl
    · intro k hk
      have h1 := spaced_shift (H - ((columnsOf box mw mh l).col k).h) (hsp k)
      have e : ((columnsOf box mw mh l).col k).h = mh + total box mh (inCol box k l) := by
        rw [columns_col _ _ _ _ hk]; rfl
      rw [e] at h1
      refine spaced_congr (fun a ha => ?_) h1
      dsimp only
      rw [(mem_inCol.mp ha).2, e]
  | unpackedMax =>
    refine ⟨stack box (fun _ p => p) l ((columnsOf box mw mh l).each fun c => { c with
      margin := (H - (c.h - (c.n + 1) * mh) - 2 * mh) / (c.n - 1), h := mh }).col z.pos, ?_, ?_, ?_⟩
    · intro a ha
      exact stack_put _ _ _ hn' _ _ a ha
    · intro a ha
      rw [stack_x _ _ hn' _ _ ha]
      simp only [Columns.each, hmem a ha, if_true]
    · intro k hk
      have h1 := stack_spaced box l hn' ((columnsOf box mw mh l).each fun c => { c with
            margin := (H - (c.h - (c.n + 1) * mh) - 2 * mh) / (c.n - 1), h := mh }).col z.pos k
      simp only [Columns.each, hk, if_true, hsum k hk, hnum k hk] at h1
      exact h1
  | unpackedRegular =>
    refine ⟨stack box (fun _ p => p) l ((columnsOf box mw mh l).each fun c => { c with
      margin := (H - (c.h - (c.n + 1) * mh)) / (c.n + 1),
      h := (H - (c.h - (c.n + 1) * mh)) / (c.n + 1) }).col z.pos, ?_, ?_, ?_⟩
    · intro a ha
      exact stack_put _ _ _ hn' _ _ a ha
    · intro a ha
      rw [stack_x _ _ hn' _ _ ha]
      simp only [Columns.each, hmem a ha, if_true]
    · intro k hk
      have h1 := stack_spaced box l hn' ((columnsOf box mw mh l).each fun c => { c with
            margin := (H - (c.h - (c.n + 1) * mh)) / (c.n + 1),
            h := (H - (c.h - (c.n + 1) * mh)) / (c.n + 1) }).col z.pos k
      simp only [Columns.each, hk, if_true, hsum k hk, hnum k hk] at h1
      exact h1

/-- The spaces of a column are at least the margin and the column holds in the zone. -/
theorem gaps_fit {box : ι → Box} {mh H : ℚ} (hmh : 0 ≤ mh) {l : List ι} (hl : l ≠ []) (hH : mh + total box mh l ≤ H)
    (s : Spacement) :
    0 ≤ gapOf box mh H l s ∧ (2 ≤ l.length → mh ≤ gapOf box mh H l s) ∧ mh ≤ topOf box mh H l s ∧
      topOf box mh H l s + total box (gapOf box mh H l s) l ≤ H - mh + gapOf box mh H l s := by
  have hlen : 1 ≤ l.length := List.length_pos_iff.mpr hl
  have hlq : (1 : ℚ) ≤ l.length := by exact_mod_cast hlen
  rw [total_gap box mh 0] at hH
  cases s with
  | packedUp =>
    simp only [gapOf, topOf]
    rw [total_gap box mh 0]
    exact ⟨hmh, fun _ => le_refl _, le_refl _, by linarith⟩
  | packedDown =>
    simp only [gapOf, topOf]
    rw [total_gap box mh 0]
    exact ⟨hmh, fun _ => le_refl _, by linarith, by linarith⟩
  | unpackedMax =>
    simp only [gapOf, topOf]
    rw [total_gap box ((H - total box 0 l - 2 * mh) / (l.length - 1)) 0]
    by_cases h1 : l.length = 1
    · rw [h1] at hH ⊢
      simp only [Nat.cast_one, sub_self, div_zero] at hH ⊢
      refine ⟨le_refl _, fun h => absurd h (by decide), le_refl _, by linarith⟩
    · have h2 : (2 : ℚ) ≤ l.length := by exact_mod_cast (by omega : 2 ≤ l.length)
      have hd : (0 : ℚ) < l.length - 1 := by linarith
      have hg : mh ≤ (H - total box 0 l - 2 * mh) / (l.length - 1) := by
        rw [le_div_iff₀ hd]; linarith
      have he : (H - total box 0 l - 2 * mh) / (l.length - 1) * (l.length - 1) = H - total box 0 l - 2 * mh :=
        div_mul_cancel₀ _ (ne_of_gt hd)
      refine ⟨le_trans hmh hg, fun _ => hg, le_refl _, by linarith⟩
  | unpackedRegular =>
    simp only [gapOf, topOf]
    rw [total_gap box ((H - total box 0 l) / (l.length + 1)) 0]
    have hd : (0 : ℚ) < l.length + 1 := by linarith
    have hg : mh ≤ (H - total box 0 l) / (l.length + 1) := by
      rw [le_div_iff₀ hd]; linarith
    have he : (H - total box 0 l) / (l.length + 1) * (l.length + 1) = H - total box 0 l :=
      div_mul_cancel₀ _ (ne_of_gt hd)
    exact ⟨le_trans hmh hg, fun _ => hg, hg, by linarith⟩

omit [DecidableEq ι] in
theorem pairwise_cols {box : ι → Box} {R : ι → ι → Prop} {l : List ι}
    (h : ∀ k, (∃ a ∈ l, (box a).col = k) → (inCol box k l).Pairwise R) :
    l.Pairwise fun a b => (box a).col = (box b).col → R a b := by
  induction l with
  | nil => exact List.Pairwise.nil
  | cons a l ih =>
    rw [List.pairwise_cons]
    constructor
    · intro b hb e
      have := h (box a).col ⟨a, List.mem_cons_self, rfl⟩
      rw [inCol_cons_same, List.pairwise_cons] at this
      exact this.1 b (mem_inCol.mpr ⟨hb, e.symm⟩)
    · refine ih fun k hk => ?_
      obtain ⟨b, hb, rfl⟩ := hk
      have := h (box b).col ⟨b, List.mem_cons_of_mem _ hb, rfl⟩
      by_cases e : (box b).col = (box a).col
      · rw [e, inCol_cons_same, List.pairwise_cons] at this
        rw [e]
        exact this.2
      · rwa [inCol_cons_other box e] at this

/-- What a shown container places: its bounds move nothing. -/
theorem fit_places {items : List ι} (hn : items.Nodup) (visible : ι → Bool) {box : ι → Box} {mw mh pen : ℚ} (s : Spacement)
    (z : Zone ι) (hmw : 0 ≤ mw) (hmh : 0 ≤ mh) (hpen : 0 ≤ pen) (hh : ∀ a ∈ items, 0 ≤ (box a).h) :
    let l := items.filter visible
    let r := fit true items visible box mw mh pen s z
    r.w = width mw (columnsOf box mw mh l) ∧ r.h = height (columnsOf box mw mh l) ∧
      (∀ a ∈ l, (r.pos a).1 = ((columnsOf box mw mh l).col (box a).col).x) ∧
      ∀ k ∈ (columnsOf box mw mh l).keys, Spaced box (fun a => (r.pos a).2)
        (gapOf box mh r.h (inCol box k l) s) (topOf box mh r.h (inCol box k l) s) (inCol box k l) := by
  intro l r
  obtain ⟨h1, h2, raw, h3, h4, h5⟩ := fit_raw items hn visible box mw mh pen s z l rfl _ rfl
  have hhl : ∀ a ∈ l, 0 ≤ (box a).h := fun a ha => hh a (List.mem_of_mem_filter ha)
  have hsame : ∀ a ∈ l, r.pos a = raw a := by
    intro a ha
    rw [show r.pos a = _ from h3 a ha]
    have hk : (box a).col ∈ (columnsOf box mw mh l).keys := (columns_keys ..).mpr ⟨a, ha, rfl⟩
    have hin : a ∈ inCol box (box a).col l := mem_inCol.mpr ⟨ha, rfl⟩
    obtain ⟨g1, g2, g3, g4⟩ := gaps_fit hmh (List.ne_nil_of_mem hin) (columns_height mw mh l hk) s
    obtain ⟨b1, b2⟩ := spaced_bounds g1 (fun b hb => hhl b (mem_inCol.mp hb).1) (h5 _ hk) a hin
    have c1 := columns_x mh l hmw hk
    have c2 := columns_width mh l hmw hk
    have c3 := columns_w box mw mh l ha
    apply pos_keep hpen
    · rw [h4 a ha]; linarith
    · rw [h4 a ha]; linarith
    · linarith
    · linarith
  refine ⟨h1, h2, fun a ha => by rw [hsame a ha]; exact h4 a ha, fun k hk => ?_⟩
  rw [show r.h = _ from h2]
  exact spaced_congr (fun a ha => by rw [hsame a (mem_inCol.mp ha).1]) (h5 k hk)

/-- **C138**: a shown container that is fitted holds its visible nodes, with the margins around them, each column on the right of
those before it, the nodes of a column aligned and one below the other in the order they were added, the margins between them;
whatever the spacing. -/
theorem C138_tidy {items : List ι} (hn : items.Nodup) (visible : ι → Bool) {box : ι → Box} {mw mh pen : ℚ} (s : Spacement)
    (z : Zone ι) (hmw : 0 ≤ mw) (hmh : 0 ≤ mh) (hpen : 0 ≤ pen) (hh : ∀ a ∈ items, 0 ≤ (box a).h) :
    Tidy box mw mh (items.filter visible) (fit true items visible box mw mh pen s z).w
      (fit true items visible box mw mh pen s z).h (fit true items visible box mw mh pen s z).pos := by
  obtain ⟨h1, h2, h3, h4⟩ := fit_places hn visible s z hmw hmh hpen hh
  generalize fit true items visible box mw mh pen s z = r at *
  generalize hl : items.filter visible = l at *
  have hhl : ∀ a ∈ l, 0 ≤ (box a).h := fun a ha => hh a (List.mem_of_mem_filter (hl ▸ ha))
  have hk : ∀ a ∈ l, (box a).col ∈ (columnsOf box mw mh l).keys := fun a ha => (columns_keys ..).mpr ⟨a, ha, rfl⟩
  have hv : ∀ a ∈ l, mh ≤ (r.pos a).2 ∧ (r.pos a).2 + (box a).h ≤ r.h - mh := by
    intro a ha
    have hin : a ∈ inCol box (box a).col l := mem_inCol.mpr ⟨ha, rfl⟩
    obtain ⟨g1, g2, g3, g4⟩ := gaps_fit hmh (List.ne_nil_of_mem hin) (h2 ▸ columns_height mw mh l (hk a ha)) s
    obtain ⟨b1, b2⟩ := spaced_bounds g1 (fun b hb => hhl b (mem_inCol.mp hb).1) (h4 _ (hk a ha)) a hin
    constructor <;> linarith
  refine ⟨fun a ha => ?_, fun a ha => ?_, fun a ha => (hv a ha).1, fun a ha => (hv a ha).2, fun a ha b hb h => ?_, ?_⟩
  · rw [h3 a ha]
    exact columns_x mh l hmw (hk a ha)
  · rw [h3 a ha, h1]
    have := columns_width mh l hmw (hk a ha)
    have := columns_w box mw mh l ha
    linarith
  · rw [h3 a ha, h3 b hb]
    have := columns_apart mh l hmw (hk a ha) (hk b hb) h
    have := columns_w box mw mh l ha
    linarith
  · have hp : l.Pairwise fun a b => (box a).col = (box b).col → (r.pos a).2 + (box a).h + mh ≤ (r.pos b).2 := by
      refine pairwise_cols fun k hk' => ?_
      have hk'' := (columns_keys box mw mh l k).mpr hk'
      obtain ⟨a, ha, rfl⟩ := hk'
      have hin : a ∈ inCol box (box a).col l := mem_inCol.mpr ⟨ha, rfl⟩
      obtain ⟨g1, g2, g3, g4⟩ := gaps_fit hmh (List.ne_nil_of_mem hin) (h2 ▸ columns_height mw mh l (hk a ha)) s
      have hpw := spaced_pairwise g1 (fun b hb => hhl b (mem_inCol.mp hb).1) (h4 _ hk'')
      match hlist : inCol box (box a).col l, hpw, g2 with
      | [], _, _ => exact List.Pairwise.nil
      | [b], _, _ => exact List.pairwise_singleton _ _
      | b :: c :: rest, hpw, g2 =>
        have hg := g2 (by simp)
        refine hpw.imp fun h => ?_
        linarith
    refine List.Pairwise.imp_of_mem ?_ hp
    intro a b ha hb h e
    exact ⟨by rw [h3 a ha, h3 b hb, e], h e⟩

/-- Four nodes, the third hidden: two in the first column of width 30, one in the column 7, and the margins of the views. -/
def exBox : Nat → Box
  | 0 => ⟨0, 30, 20⟩
  | 1 => ⟨7, 40, 90⟩
  | 2 => ⟨3, 15, 15⟩
  | _ => ⟨0, 20, 20⟩

def exFit (s : Spacement) : Zone Nat := fit true [0, 1, 2, 3] (· ≠ 2) exBox 50 10 1 s ⟨0, 0, fun _ => (5, 5)⟩

example : ((exFit .unpackedRegular).w, (exFit .unpackedRegular).h) = (220, 110) := by decide +kernel
example : [0, 1, 2, 3].map (exFit .unpackedRegular).pos = [(50, 70 / 3), (130, 10), (5, 5), (50, 200 / 3)] := by decide +kernel
example : [0, 1, 2, 3].map (exFit .packedDown).pos = [(50, 50), (130, 10), (5, 5), (50, 80)] := by decide +kernel
example : [0, 1, 2, 3].map (exFit .unpackedMax).pos = [(50, 10), (130, 10), (5, 5), (50, 80)] := by decide +kernel
example (s : Spacement) : Tidy exBox 50 10 ([0, 1, 2, 3].filter (· ≠ 2)) (exFit s).w (exFit s).h (exFit s).pos := by
  unfold exFit
  exact C138_tidy (by decide) _ s _ (by decide) (by decide) (by decide) (by decide +kernel)

/-! ## The smallest zone -/

omit [DecidableEq ι] in
theorem widest (box : ι → Box) {l : List ι} (hl : l ≠ []) (hw : ∀ a ∈ l, 0 ≤ (box a).w) :
    ∃ b ∈ l, l.foldl (fun w a => max w (box a).w) 0 ≤ (box b).w := by
  have key : ∀ (l : List ι) (w : ℚ), l.foldl (fun w a => max w (box a).w) w ≤ w ∨
      ∃ b ∈ l, l.foldl (fun w a => max w (box a).w) w ≤ (box b).w := by
    intro l
    induction l with
    | nil => intro w; exact Or.inl (le_refl _)
    | cons a l ih =>
      intro w
      rw [List.foldl_cons]
      rcases ih (max w (box a).w) with h | ⟨b, hb, h⟩
      · rcases le_total w (box a).w with h' | h'
        · rw [max_eq_right h'] at h ⊢
          exact Or.inr ⟨a, List.mem_cons_self, h⟩
        · rw [max_eq_left h'] at h ⊢
          exact Or.inl h
      · exact Or.inr ⟨b, List.mem_cons_of_mem _ hb, h⟩
  rcases key l 0 with h | h
  · obtain ⟨a, l', rfl⟩ := List.exists_cons_of_ne_nil hl
    exact ⟨a, List.mem_cons_self, le_trans h (hw a List.mem_cons_self)⟩
  · exact h

omit [DecidableEq ι] in
theorem column_needs {box : ι → Box} {y : ι → ℚ} {mh : ℚ} {l : List ι} (hl : l ≠ []) {start : ℚ}
    (hs : ∀ a ∈ l, start ≤ y a) (hp : l.Pairwise fun a b => y a + (box a).h + mh ≤ y b) :
    ∃ a ∈ l, start + total box mh l ≤ y a + (box a).h + mh := by
  induction l generalizing start with
  | nil => exact absurd rfl hl
  | cons a l ih =>
    rw [List.pairwise_cons] at hp
    have h0 := hs a List.mem_cons_self
    by_cases h : l = []
    · subst h
      refine ⟨a, List.mem_cons_self, ?_⟩
      simp only [total, List.map_cons, List.map_nil, List.sum_cons, List.sum_nil]
      linarith
    · obtain ⟨b, hb, hle⟩ := ih h (start := y a + (box a).h + mh) (fun b hb => hp.1 b hb) hp.2
      refine ⟨b, List.mem_cons_of_mem _ hb, ?_⟩
      simp only [total, List.map_cons, List.sum_cons] at hle ⊢
      linarith

/-- **C138**: no smaller zone can hold the visible nodes in their columns and in their order with these margins. -/
theorem C138_least {items : List ι} (hn : items.Nodup) (visible : ι → Bool) {box : ι → Box} {mw mh pen : ℚ} (s : Spacement)
    (z : Zone ι) (hmw : 0 ≤ mw) (hmh : 0 ≤ mh) (hpen : 0 ≤ pen) (hw : ∀ a ∈ items, 0 ≤ (box a).w)
    (hh : ∀ a ∈ items, 0 ≤ (box a).h) (W H : ℚ) (pos : ι → ℚ × ℚ) (hne : items.filter visible ≠ [])
    (ht : Tidy box mw mh (items.filter visible) W H pos) :
    (fit true items visible box mw mh pen s z).w ≤ W ∧ (fit true items visible box mw mh pen s z).h ≤ H := by
  obtain ⟨h1, h2, -, -⟩ := fit_places hn visible s z hmw hmh hpen hh
  rw [h1, h2]
  clear h1 h2
  generalize hl : items.filter visible = l at *
  have hhl : ∀ a ∈ l, 0 ≤ (box a).h := fun a ha => hh a (List.mem_of_mem_filter (hl ▸ ha))
  have hwl : ∀ a ∈ l, 0 ≤ (box a).w := fun a ha => hw a (List.mem_of_mem_filter (hl ▸ ha))
  have hsame : ∀ a ∈ l, ∀ b ∈ l, (box a).col = (box b).col → (pos a).1 = (pos b).1 := by
    have hp : l.Pairwise fun a b => (box a).col = (box b).col → (pos a).1 = (pos b).1 :=
      ht.rows.imp fun h e => (h e).1
    intro a ha b hb
    haveI : Std.Symm fun a b => (box a).col = (box b).col → (pos a).1 = (pos b).1 :=
      ⟨fun a b h e => (h e.symm).symm⟩
    exact List.Pairwise.forall_of_forall (R := fun a b => (box a).col = (box b).col → (pos a).1 = (pos b).1)
      (fun a _ _ => rfl) hp ha hb
  have hwide : ∀ k ∈ (columnsOf box mw mh l).keys, ∃ b ∈ l, (box b).col = k ∧
      ((columnsOf box mw mh l).col k).w ≤ (box b).w := by
    intro k hk
    obtain ⟨a, ha, hak⟩ := (columns_keys ..).mp hk
    have hin : a ∈ inCol box k l := mem_inCol.mpr ⟨ha, hak⟩
    obtain ⟨b, hb, hle⟩ := widest box (List.ne_nil_of_mem hin) (fun c hc => hwl c (mem_inCol.mp hc).1)
    refine ⟨b, (mem_inCol.mp hb).1, (mem_inCol.mp hb).2, ?_⟩
    rw [columns_col _ _ _ _ hk]
    exact hle
  have hone : ∀ k, ∃ x : ℚ, ∀ a ∈ l, (box a).col = k → (pos a).1 = x := by
    intro k
    by_cases h : ∃ a ∈ l, (box a).col = k
    · obtain ⟨a, ha, rfl⟩ := h
      exact ⟨(pos a).1, fun b hb e => hsame b hb a ha e⟩
    · exact ⟨0, fun a ha e => absurd ⟨a, ha, e⟩ h⟩
  choose X hX using hone
  have hwid : ∀ n, ((columnsOf box mw mh l).col n).w = ((sizes box mh l {} (fun _ => 0)).1.col n).w := by
    intro n
    unfold columnsOf
    dsimp only
    rw [places_rest]
  have hx : ∀ k ∈ (columnsOf box mw mh l).keys, ((columnsOf box mw mh l).col k).x ≤ X k := by
    refine places_least mw _ (columns_sorted box mw mh l) mw _ X ?_ ?_
    · intro k hk
      obtain ⟨a, ha, hak⟩ := (columns_keys box mw mh l k).mp hk
      rw [← hX k a ha hak]
      exact ht.left a ha
    · intro k hk j hj hkj
      obtain ⟨b, hb, hbk, hle⟩ := hwide k hk
      obtain ⟨a, ha, haj⟩ := (columns_keys box mw mh l j).mp hj
      have := ht.columns b hb a ha (by rw [hbk, haj]; exact hkj)
      rw [hX k b hb hbk, hX j a ha haj] at this
      rw [hwid] at hle
      linarith
  constructor
  · unfold width
    split
    · rename_i h
      rw [List.getLast?_eq_none_iff] at h
      obtain ⟨a, l', rfl⟩ := List.exists_cons_of_ne_nil hne
      have : (box a).col ∈ (columnsOf box mw mh (a :: l')).keys := (columns_keys ..).mpr ⟨a, List.mem_cons_self, rfl⟩
      rw [h] at this
      cases this
    · rename_i k h
      have hk := List.mem_of_getLast? h
      obtain ⟨b, hb, hbk, hle⟩ := hwide k hk
      have h1 := hx k hk
      have h2 := ht.right b hb
      rw [hX k b hb hbk] at h2
      linarith
  · apply foldl_max_le
    · obtain ⟨a, l', rfl⟩ := List.exists_cons_of_ne_nil hne
      have h1 := ht.top a List.mem_cons_self
      have h2 := ht.bottom a List.mem_cons_self
      have h3 := hhl a List.mem_cons_self
      linarith
    · intro k hk
      obtain ⟨a, ha, hak⟩ := (columns_keys ..).mp hk
      have hin : a ∈ inCol box k l := mem_inCol.mpr ⟨ha, hak⟩
      have hp : (inCol box k l).Pairwise fun a b => (pos a).2 + (box a).h + mh ≤ (pos b).2 := by
        refine List.Pairwise.imp_of_mem ?_ (ht.rows.filter _)
        intro a b ha hb h
        exact (h ((mem_inCol.mp ha).2.trans (mem_inCol.mp hb).2.symm)).2
      obtain ⟨b, hb, hle⟩ := column_needs (y := fun a => (pos a).2) (List.ne_nil_of_mem hin)
        (fun a ha => ht.top a (mem_inCol.mp ha).1) hp
      have := ht.bottom b (mem_inCol.mp hb).1
      rw [columns_col _ _ _ _ hk]
      simp only [grown]
      linarith

/-- A larger zone holds the three nodes too. -/
example (s : Spacement) : (exFit s).w ≤ 300 ∧ (exFit s).h ≤ 200 := by
  unfold exFit
  exact C138_least (by decide) _ s _ (by decide) (by decide) (by decide) (by decide +kernel) (by decide +kernel) 300 200
    (fun n => if n = 0 then (60, 10) else if n = 1 then (180, 20) else (60, 100)) (by decide)
    ⟨by decide +kernel, by decide +kernel, by decide +kernel, by decide +kernel, by decide +kernel, by decide +kernel⟩

/-! ## The spaces -/

omit [DecidableEq ι] in
theorem spaced_last {box : ι → Box} {y : ι → ℚ} {gap top : ℚ} {l : List ι} (h : Spaced box y gap top l) {a : ι}
    (ha : l.getLast? = some a) : y a + (box a).h + gap = top + total box gap l := by
  induction l generalizing top with
  | nil => cases ha
  | cons b l ih =>
    obtain ⟨h1, h2⟩ := h
    by_cases hl : l = []
    · subst hl
      simp only [List.getLast?_singleton, Option.some.injEq] at ha
      subst ha
      simp only [total, List.map_cons, List.map_nil, List.sum_cons, List.sum_nil]
      linarith
    · obtain ⟨c, l', rfl⟩ := List.exists_cons_of_ne_nil hl
      rw [List.getLast?_cons_cons] at ha
      have := ih h2 ha
      simp only [total, List.map_cons, List.sum_cons] at this ⊢
      linarith

/-- **C138**: how the visible nodes of a column are spread in the height of the zone: packed on the top, packed on the bottom, from
the margin on the top to that on the bottom, or with the same space between them, above the first and below the last. -/
theorem C138_spread {items : List ι} (hn : items.Nodup) (visible : ι → Bool) {box : ι → Box} {mw mh pen : ℚ} (s : Spacement)
    (z : Zone ι) (hmw : 0 ≤ mw) (hmh : 0 ≤ mh) (hpen : 0 ≤ pen) (hh : ∀ a ∈ items, 0 ≤ (box a).h) (k : Nat)
    (l : List ι) (hl : l = (items.filter visible).filter fun a => (box a).col = k) (last : ι) (hlast : l.getLast? = some last) :
    match s with
    | .packedUp => Spaced box (fun a => ((fit true items visible box mw mh pen s z).pos a).2) mh mh l
    | .packedDown => ∃ top, Spaced box (fun a => ((fit true items visible box mw mh pen s z).pos a).2) mh top l ∧
        ((fit true items visible box mw mh pen s z).pos last).2 + (box last).h + mh
          = (fit true items visible box mw mh pen s z).h
    | .unpackedMax => ∃ gap, Spaced box (fun a => ((fit true items visible box mw mh pen s z).pos a).2) gap mh l ∧
        (2 ≤ l.length → ((fit true items visible box mw mh pen s z).pos last).2 + (box last).h + mh
          = (fit true items visible box mw mh pen s z).h)
    | .unpackedRegular => ∃ gap, Spaced box (fun a => ((fit true items visible box mw mh pen s z).pos a).2) gap gap l ∧
        ((fit true items visible box mw mh pen s z).pos last).2 + (box last).h + gap
          = (fit true items visible box mw mh pen s z).h := by
  obtain ⟨-, -, -, h4⟩ := fit_places hn visible s z hmw hmh hpen hh
  have hm := List.mem_of_getLast? hlast
  have hk : k ∈ (columnsOf box mw mh (items.filter visible)).keys := by
    rw [hl] at hm
    exact (columns_keys ..).mpr ⟨last, (mem_inCol.mp hm).1, (mem_inCol.mp hm).2⟩
  have h5 := h4 k hk
  rw [show inCol box k (items.filter visible) = l from hl.symm] at h5
  have h6 := spaced_last h5 hlast
  have hlen : (1 : ℚ) ≤ l.length := by exact_mod_cast List.length_pos_iff.mpr (List.ne_nil_of_mem hm)
  cases s with
  | packedUp => exact h5
  | packedDown =>
    refine ⟨_, h5, ?_⟩
    simp only [gapOf, topOf] at h6
    linarith
  | unpackedMax =>
    refine ⟨_, h5, fun h2 => ?_⟩
    have h2q : (2 : ℚ) ≤ l.length := by exact_mod_cast h2
    simp only [gapOf, topOf] at h6
    generalize (fit true items visible box mw mh pen .unpackedMax z) = r at *
    have hd : (l.length : ℚ) - 1 ≠ 0 := by linarith
    have he : (r.h - total box 0 l - 2 * mh) / (l.length - 1) * (l.length - 1) = r.h - total box 0 l - 2 * mh :=
      div_mul_cancel₀ _ hd
    rw [total_gap box ((r.h - total box 0 l - 2 * mh) / (l.length - 1)) 0] at h6
    linarith
  | unpackedRegular =>
    refine ⟨_, h5, ?_⟩
    simp only [gapOf, topOf] at h6 ⊢
    generalize (fit true items visible box mw mh pen .unpackedRegular z) = r at *
    have hd : (l.length : ℚ) + 1 ≠ 0 := by linarith
    have he : (r.h - total box 0 l) / (l.length + 1) * (l.length + 1) = r.h - total box 0 l := div_mul_cancel₀ _ hd
    rw [total_gap box ((r.h - total box 0 l) / (l.length + 1)) 0] at h6
    linarith

example : ∃ gap, Spaced exBox (fun a => ((exFit .unpackedRegular).pos a).2) gap gap [0, 3] ∧
    ((exFit .unpackedRegular).pos 3).2 + (exBox 3).h + gap = (exFit .unpackedRegular).h := by
  unfold exFit
  exact C138_spread (by decide) _ .unpackedRegular _ (by decide) (by decide) (by decide) (by decide +kernel) 0 [0, 3] (by decide) 3 rfl

/-- **C138**: a hidden container is left as it is, and what is hidden in a shown one stays where it is. -/
theorem C138_hidden {items : List ι} (hn : items.Nodup) (shown : Bool) (visible : ι → Bool) (box : ι → Box) (mw mh pen : ℚ)
    (s : Spacement) (z : Zone ι) :
    (shown = false → fit shown items visible box mw mh pen s z = z) ∧
      ∀ a, visible a = false → (fit shown items visible box mw mh pen s z).pos a = z.pos a := by
  refine ⟨fun h => by simp [fit, h], fun a ha => ?_⟩
  cases shown with
  | false => simp [fit]
  | true =>
    have hn' : (items.filter visible).Nodup := hn.filter _
    have hm : a ∉ items.filter visible := fun h => by simp [ha] at h
    unfold fit
    rw [if_pos rfl]
    cases s with
    | packedUp => dsimp only; rw [foldl_set _ hn', if_neg hm]
    | packedDown => dsimp only; rw [foldl_set _ hn', if_neg hm]
    | unpackedMax => exact stack_other _ _ _ _ _ hm
    | unpackedRegular => exact stack_other _ _ _ _ _ hm

example : fit false [0, 1, 2, 3] (· ≠ 2) exBox 50 10 1 .packedUp ⟨0, 0, fun _ => (5, 5)⟩ = ⟨0, 0, fun _ => (5, 5)⟩ :=
  (C138_hidden (by decide) false _ _ _ _ _ _ _).1 rfl

/-! ## The scene -/

theorem pile_other (visible : ι → Bool) (size : ι → ℚ × ℚ) (x : ℚ) (l : List ι) (y : ℚ) (pos : ι → ℚ × ℚ) {a : ι} (h : a ∉ l) :
    pile visible size x l y pos a = pos a := by
  induction l generalizing y pos with
  | nil => rfl
  | cons b l ih =>
    rw [List.mem_cons, not_or] at h
    simp only [pile]
    split
    · rw [ih _ _ h.2, set_other _ _ h.1]
    · exact ih _ _ h.2

theorem pile_at (visible : ι → Bool) (size : ι → ℚ × ℚ) (x : ℚ) (l : List ι) (hl : l.Nodup)
    (hs : ∀ a ∈ l, visible a = true → 0 ≤ (size a).2) (y : ℚ)
    (pos : ι → ℚ × ℚ) : ∀ a ∈ l, visible a = true →
      (pile visible size x l y pos a).1 = x ∧ y ≤ (pile visible size x l y pos a).2 := by
  induction l generalizing y pos with
  | nil => simp
  | cons b l ih =>
    rw [List.nodup_cons] at hl
    intro a ha hv
    have hs' := fun a ha => hs a (List.mem_cons_of_mem b ha)
    simp only [pile]
    rcases List.mem_cons.mp ha with rfl | ha
    · rw [if_pos hv, pile_other _ _ _ _ _ _ hl.1, set_same]
      exact ⟨rfl, le_refl _⟩
    · split
      · rename_i hb
        have h1 := ih hl.2 hs' (y + ((size b).2 + 100)) (set pos b (x, y)) a ha hv
        have h2 := hs b List.mem_cons_self hb
        exact ⟨h1.1, by linarith [h1.2]⟩
      · exact ih hl.2 hs' y pos a ha hv

theorem pile_pairwise (visible : ι → Bool) (size : ι → ℚ × ℚ) (x : ℚ) (l : List ι) (hl : l.Nodup)
    (hs : ∀ a ∈ l, visible a = true → 0 ≤ (size a).2) (y : ℚ) (pos : ι → ℚ × ℚ) :
    l.Pairwise fun a b => visible a = true → visible b = true →
      (pile visible size x l y pos a).2 + (size a).2 + 100 ≤ (pile visible size x l y pos b).2 := by
  induction l generalizing y pos with
  | nil => exact List.Pairwise.nil
  | cons b l ih =>
    rw [List.nodup_cons] at hl
    have hs' := fun a ha => hs a (List.mem_cons_of_mem b ha)
    rw [List.pairwise_cons]
    constructor
    · intro a ha hb hva
      simp only [pile, if_pos hb]
      rw [pile_other _ _ _ _ _ _ hl.1, set_same]
      have := (pile_at visible size x l hl.2 hs' (y + ((size b).2 + 100)) (set pos b (x, y)) a ha hva).2
      linarith
    · simp only [pile]
      split
      · exact ih hl.2 hs' _ _
      · exact ih hl.2 hs' _ _

theorem foldl_visible_le (visible : ι → Bool) (g : ι → ℚ) (l : List ι) (m : ℚ) {a : ι} (ha : a ∈ l) (hv : visible a = true) :
    g a ≤ l.foldl (fun m a => if visible a then max m (g a) else m) m := by
  have hge : ∀ (l : List ι) (m : ℚ), m ≤ l.foldl (fun m a => if visible a then max m (g a) else m) m := by
    intro l
    induction l with
    | nil => intro m; exact le_refl _
    | cons b l ih =>
      intro m
      rw [List.foldl_cons]
      split
      · exact le_trans (le_max_left _ _) (ih _)
      · exact ih _
  induction l generalizing m with
  | nil => cases ha
  | cons b l ih =>
    rw [List.foldl_cons]
    rcases List.mem_cons.mp ha with rfl | ha
    · rw [if_pos hv]
      exact le_trans (le_max_right _ _) (hge _ _)
    · exact ih _ ha

/-- **C139**: once the scene is arranged, the visible planes are on the left, one below the other, the visible axes on their right,
one below the other, and no two of them touch. -/
theorem C139_apart {planes axes : List ι} (hn : (planes ++ axes).Nodup) (visible : ι → Bool) {size : ι → ℚ × ℚ}
    (hs : ∀ a ∈ planes ++ axes, visible a = true → 0 ≤ (size a).1 ∧ 0 ≤ (size a).2) (pos : ι → ℚ × ℚ) {a b : ι} (ha : a ∈ planes ++ axes)
    (hb : b ∈ planes ++ axes) (hab : a ≠ b) (hva : visible a = true) (hvb : visible b = true) :
    Apart (fitScene visible size planes axes pos a) (fitScene visible size planes axes pos b) (size a) (size b) := by
  obtain ⟨hp, hx, hd⟩ := List.nodup_append.mp hn
  have hsp : ∀ a ∈ planes, visible a = true → 0 ≤ (size a).2 := fun a ha hv => (hs a (List.mem_append_left _ ha) hv).2
  have hsx : ∀ a ∈ axes, visible a = true → 0 ≤ (size a).2 := fun a ha hv => (hs a (List.mem_append_right _ ha) hv).2
  have hcross : ∀ a ∈ planes, ∀ b ∈ axes, visible a = true → visible b = true →
      (fitScene visible size planes axes pos a).1 + (size a).1 < (fitScene visible size planes axes pos b).1 := by
    intro a ha b hb hva hvb
    unfold fitScene
    rw [(pile_at visible size _ axes hx hsx 0 _ b hb hvb).1, pile_other _ _ _ _ _ _ (fun h => hd a ha a h rfl),
      (pile_at visible size _ planes hp hsp 0 _ a ha hva).1]
    have := foldl_visible_le visible (fun a => (size a).1) planes 0 ha hva
    linarith
  have hsame : ∀ (l : List ι), l.Pairwise (fun a b => visible a = true → visible b = true →
      (fitScene visible size planes axes pos a).2 + (size a).2 + 100 ≤ (fitScene visible size planes axes pos b).2) →
      a ∈ l → b ∈ l →
      Apart (fitScene visible size planes axes pos a) (fitScene visible size planes axes pos b) (size a) (size b) := by
    intro l hl ha hb
    have hl' : l.Pairwise fun a b => visible a = true → visible b = true →
        ((fitScene visible size planes axes pos a).2 + (size a).2 + 100 ≤ (fitScene visible size planes axes pos b).2
        ∨ (fitScene visible size planes axes pos b).2 + (size b).2 + 100 ≤ (fitScene visible size planes axes pos a).2) :=
      hl.imp fun h h1 h2 => Or.inl (h h1 h2)
    haveI : Std.Symm fun a b => visible a = true → visible b = true →
        ((fitScene visible size planes axes pos a).2 + (size a).2 + 100 ≤ (fitScene visible size planes axes pos b).2
        ∨ (fitScene visible size planes axes pos b).2 + (size b).2 + 100 ≤ (fitScene visible size planes axes pos a).2) :=
      ⟨fun a b h h1 h2 => (h h2 h1).symm⟩
    have := hl'.forall ha hb hab hva hvb
    rcases this with h | h
    · exact Or.inr (Or.inr (Or.inl (by linarith)))
    · exact Or.inr (Or.inr (Or.inr (by linarith)))
  have hpl : planes.Pairwise fun a b => visible a = true → visible b = true →
      (fitScene visible size planes axes pos a).2 + (size a).2 + 100 ≤ (fitScene visible size planes axes pos b).2 := by
    refine List.Pairwise.imp_of_mem ?_ (pile_pairwise visible size 0 planes hp hsp 0 pos)
    intro a b ha hb h
    unfold fitScene
    rw [pile_other _ _ _ _ _ _ (fun h => hd a ha a h rfl), pile_other _ _ _ _ _ _ (fun h => hd b hb b h rfl)]
    exact h
  have hax : axes.Pairwise fun a b => visible a = true → visible b = true →
      (fitScene visible size planes axes pos a).2 + (size a).2 + 100 ≤ (fitScene visible size planes axes pos b).2 :=
    pile_pairwise visible size _ axes hx hsx 0 _
  rcases List.mem_append.mp ha with ha | ha <;> rcases List.mem_append.mp hb with hb | hb
  · exact hsame planes hpl ha hb
  · exact Or.inl (hcross a ha b hb hva hvb)
  · exact Or.inr (Or.inl (hcross b hb a ha hvb hva))
  · exact hsame axes hax ha hb

/-- Three planes, the second hidden, and three axes. -/
def exSize : Nat → ℚ × ℚ
  | 0 => (500, 300)
  | 1 => (900, 100)
  | 2 => (400, 200)
  | _ => (800, 600)

example : (List.range 6).map (fitScene (· ≠ 1) exSize [0, 1, 2] [3, 4, 5] fun _ => (7, 7))
    = [(0, 0), (7, 7), (0, 400), (1500, 0), (1500, 700), (1500, 1400)] := by decide +kernel

example : Apart (fitScene (· ≠ 1) exSize [0, 1, 2] [3, 4, 5] (fun _ => (7, 7)) 2)
    (fitScene (· ≠ 1) exSize [0, 1, 2] [3, 4, 5] (fun _ => (7, 7)) 4) (exSize 2) (exSize 4) :=
  C139_apart (by decide) _ (by decide +kernel) _ (by decide) (by decide) (by decide) (by decide) (by decide)

theorem stacked_congr {visible : ι → Bool} {size pos pos' : ι → ℚ × ℚ} {l : List ι} {y : ℚ} (h : ∀ a ∈ l, pos a = pos' a)
    (hs : Stacked visible size pos y l) : Stacked visible size pos' y l := by
  induction l generalizing y with
  | nil => trivial
  | cons a l ih =>
    have e := h a List.mem_cons_self
    have hl := fun b hb => h b (List.mem_cons_of_mem a hb)
    by_cases hv : visible a = true
    · simp only [Stacked, hv, if_true] at hs ⊢
      rw [← e]
      exact ⟨hs.1, ih hl hs.2⟩
    · simp only [Stacked, hv, if_false] at hs ⊢
      exact ih hl hs

theorem pile_stacked (visible : ι → Bool) (size : ι → ℚ × ℚ) (x : ℚ) (l : List ι) (hl : l.Nodup) (y : ℚ) (pos : ι → ℚ × ℚ) :
    Stacked visible size (pile visible size x l y pos) y l := by
  induction l generalizing y pos with
  | nil => trivial
  | cons b l ih =>
    rw [List.nodup_cons] at hl
    by_cases hv : visible b = true
    · simp only [Stacked, hv, if_true, pile]
      rw [pile_other _ _ _ _ _ _ hl.1, set_same]
      refine ⟨rfl, ?_⟩
      have := ih hl.2 (y + ((size b).2 + 100)) (set pos b (x, y))
      rwa [← add_assoc] at this ⊢
    · simp only [Stacked, hv, if_false, pile]
      exact ih hl.2 y pos

theorem foldl_visible_eq (visible : ι → Bool) (g : ι → ℚ) (l : List ι) (m : ℚ) :
    l.foldl (fun m a => if visible a then max m (g a) else m) m
      = (l.filter visible).foldl (fun m a => max m (g a)) m := by
  induction l generalizing m with
  | nil => rfl
  | cons a l ih =>
    by_cases h : visible a = true
    · simp [h, ih]
    · simp [h, ih]

/-- **C139**: where the containers are: the visible planes at the left of the scene, the visible axes 1000 on the right of the
widest visible plane, and in both the visible ones from the top of the scene, 100 between them; the hidden ones stay. -/
theorem C139_places {planes axes : List ι} (hn : (planes ++ axes).Nodup) (visible : ι → Bool) {size : ι → ℚ × ℚ}
    (hs : ∀ a ∈ planes ++ axes, visible a = true → 0 ≤ (size a).1 ∧ 0 ≤ (size a).2) (pos : ι → ℚ × ℚ) :
    let r := fitScene visible size planes axes pos
    (∀ a ∈ planes, visible a = true → (r a).1 = 0) ∧
      (∃ right : ℚ, (∀ a ∈ planes, visible a = true → (r a).1 + (size a).1 ≤ right) ∧
        (right = 0 ∨ ∃ a ∈ planes, visible a = true ∧ (r a).1 + (size a).1 = right) ∧
        ∀ a ∈ axes, visible a = true → (r a).1 = right + 1000) ∧
      Stacked visible size r 0 planes ∧ Stacked visible size r 0 axes ∧
      ∀ a, visible a = false ∨ a ∉ planes ++ axes → r a = pos a := by
  obtain ⟨hp, hx, hd⟩ := List.nodup_append.mp hn
  have hsp : ∀ a ∈ planes, visible a = true → 0 ≤ (size a).2 := fun a ha hv => (hs a (List.mem_append_left _ ha) hv).2
  have hsx : ∀ a ∈ axes, visible a = true → 0 ≤ (size a).2 := fun a ha hv => (hs a (List.mem_append_right _ ha) hv).2
  have hpl : ∀ a ∈ planes, fitScene visible size planes axes pos a = pile visible size 0 planes 0 pos a := fun a ha =>
    pile_other _ _ _ _ _ _ (fun h => hd a ha a h rfl)
  have hleft : ∀ a ∈ planes, visible a = true → (fitScene visible size planes axes pos a).1 = 0 := fun a ha hv => by
    rw [hpl a ha]; exact (pile_at visible size 0 planes hp hsp 0 pos a ha hv).1
  have hhid : ∀ (x : ℚ) (l : List ι) (y : ℚ) (pos : ι → ℚ × ℚ) (a : ι), visible a = false →
      pile visible size x l y pos a = pos a := by
    intro x l
    induction l with
    | nil => intro y pos a _; rfl
    | cons b l ih =>
      intro y pos a ha
      simp only [pile]
      split
      · rename_i hb
        rw [ih _ _ _ ha, set_other]
        rintro rfl
        simp [ha] at hb
      · exact ih _ _ _ ha
  refine ⟨hleft, ⟨_, fun a ha hv => ?_, ?_, fun a ha hv => (pile_at visible size _ axes hx hsx 0 _ a ha hv).1⟩, ?_, ?_, ?_⟩
  · rw [hleft a ha hv, zero_add]
    exact foldl_visible_le visible (fun a => (size a).1) planes 0 ha hv
  · rw [foldl_visible_eq visible (fun a => (size a).1)]
    by_cases he : planes.filter visible = []
    · left; rw [he]; rfl
    · right
      obtain ⟨b, hb, hle⟩ := widest (fun a => ⟨0, (size a).1, 0⟩) he (fun a ha =>
        (hs a (List.mem_append_left _ (List.mem_of_mem_filter ha)) (List.of_mem_filter ha)).1)
      have hb' := List.mem_of_mem_filter hb
      have hv := List.of_mem_filter hb
      refine ⟨b, hb', hv, ?_⟩
      rw [hleft b hb' hv, zero_add]
      exact le_antisymm (foldl_max_mem (fun a => (size a).1) _ 0 hb) hle
  · exact stacked_congr (fun a ha => (hpl a ha).symm) (pile_stacked visible size 0 planes hp 0 pos)
  · exact pile_stacked visible size _ axes hx 0 _
  · rintro a (h | h)
    · unfold fitScene
      rw [hhid _ _ _ _ _ h, hhid _ _ _ _ _ h]
    · rw [List.mem_append, not_or] at h
      unfold fitScene
      rw [pile_other _ _ _ _ _ _ h.2, pile_other _ _ _ _ _ _ h.1]

example : Stacked (· ≠ 1) exSize (fitScene (· ≠ 1) exSize [0, 1, 2] [3, 4, 5] fun _ => (7, 7)) 0 [0, 1, 2] :=
  (C139_places (by decide) _ (by decide +kernel) _).2.2.1

/-! ## The rectangle of the scene -/

theorem union_holds {r s : Rect} (hr : r.left < r.right ∧ r.top < r.bottom ∨ r.isNull = true)
    (hs : s.left < s.right ∧ s.top < s.bottom) :
    (r.union s).left < (r.union s).right ∧ (r.union s).top < (r.union s).bottom ∧
    (r.isNull = true ∧ r.union s = s ∨ r.isNull = false ∧
      r.union s = ⟨min r.left s.left, min r.top s.top, max r.right s.right, max r.bottom s.bottom⟩) := by
  have hsn : s.isNull = false := by
    simp only [Rect.isNull, decide_eq_false_iff_not, not_and]
    intro h; exact absurd h (ne_of_lt hs.1)
  rcases hr with hr | hr
  · have hrn : r.isNull = false := by
      simp only [Rect.isNull, decide_eq_false_iff_not, not_and]
      intro h; exact absurd h (ne_of_lt hr.1)
    have e : r.union s = ⟨min r.left s.left, min r.top s.top, max r.right s.right, max r.bottom s.bottom⟩ := by
      simp [Rect.union, hrn, hsn]
    rw [e]
    exact ⟨lt_of_le_of_lt (min_le_left _ _) (lt_of_lt_of_le hr.1 (le_max_left _ _)),
      lt_of_le_of_lt (min_le_left _ _) (lt_of_lt_of_le hr.2 (le_max_left _ _)), Or.inr ⟨hrn, rfl⟩⟩
  · have e : r.union s = s := by simp [Rect.union, hr]
    rw [e]
    exact ⟨hs.1, hs.2, Or.inl ⟨hr, rfl⟩⟩

theorem bounding_aux (visible : ι → Bool) (size pos : ι → ℚ × ℚ) (l : List ι)
    (hs : ∀ a ∈ l, visible a = true → 0 < (size a).1 ∧ 0 < (size a).2) (r : Rect)
    (hr : r.left < r.right ∧ r.top < r.bottom ∨ r.isNull = true) (P : ℚ × ℚ → ℚ × ℚ → Prop)
    (hP : r.isNull = false → ∀ p s, P p s → Holds r 0 p s) :
    let t := l.foldl (fun r a => if visible a then
      r.union ⟨(pos a).1, (pos a).2, (pos a).1 + (size a).1, (pos a).2 + (size a).2⟩ else r) r
    (t.left < t.right ∧ t.top < t.bottom ∨ t.isNull = true ∧ t = r) ∧
      (∀ a ∈ l, visible a = true → Holds t 0 (pos a) (size a)) ∧
      (r.isNull = false → ∀ p s, P p s → Holds t 0 p s) ∧
      ∀ u : Rect, (r.isNull = true ∨ u.left ≤ r.left ∧ u.top ≤ r.top ∧ r.right ≤ u.right ∧ r.bottom ≤ u.bottom) →
        (∀ a ∈ l, visible a = true → Holds u 0 (pos a) (size a)) →
        t.isNull = true ∨ u.left ≤ t.left ∧ u.top ≤ t.top ∧ t.right ≤ u.right ∧ t.bottom ≤ u.bottom := by
  induction l generalizing r P with
  | nil =>
    refine ⟨hr.imp id fun h => ⟨h, rfl⟩, by simp, hP, fun u hu _ => hu⟩
  | cons b l ih =>
    have hs' := fun a ha => hs a (List.mem_cons_of_mem b ha)
    by_cases hv : visible b = true
    · simp only [List.foldl_cons, hv, if_true]
      have hb := hs b List.mem_cons_self hv
      obtain ⟨u1, u2, u3⟩ := union_holds (s := ⟨(pos b).1, (pos b).2, (pos b).1 + (size b).1, (pos b).2 + (size b).2⟩) hr
        ⟨by simp only; linarith, by simp only; linarith⟩
      generalize r.union ⟨(pos b).1, (pos b).2, (pos b).1 + (size b).1, (pos b).2 + (size b).2⟩ = q at *
      have hqn : q.isNull = false := by
        simp only [Rect.isNull, decide_eq_false_iff_not, not_and]
        intro h; exact absurd h (ne_of_lt u1)
      have hqb : Holds q 0 (pos b) (size b) := by
        rcases u3 with ⟨-, rfl⟩ | ⟨hrn, rfl⟩
        · simp [Holds]
        · simp [Holds]
      obtain ⟨i1, i2, i3, i4⟩ := ih hs' q (Or.inl ⟨u1, u2⟩)
        (fun p s => p = pos b ∧ s = size b ∨ (r.isNull = false ∧ P p s)) (by
          rintro - p s (⟨rfl, rfl⟩ | ⟨hn, h⟩)
          · exact hqb
          · have h' := hP hn p s h
            rcases u3 with ⟨h3, -⟩ | ⟨-, rfl⟩
            · rw [hn] at h3; cases h3
            · obtain ⟨a1, a2, a3, a4⟩ := h'
              simp only [add_zero] at a1 a2 a3 a4
              simp only [Holds, add_zero]
              exact ⟨le_trans (min_le_left _ _) a1, le_trans (min_le_left _ _) a2, le_trans a3 (le_max_left _ _),
                le_trans a4 (le_max_left _ _)⟩)
      refine ⟨?_, ?_, ?_, ?_⟩
      · rcases i1 with h | ⟨h, e⟩
        · exact Or.inl h
        · rw [e, hqn] at h; cases h
      · intro a ha hva
        rcases List.mem_cons.mp ha with rfl | ha
        · exact i3 hqn _ _ (Or.inl ⟨rfl, rfl⟩)
        · exact i2 a ha hva
      · intro hn p s h
        exact i3 hqn p s (Or.inr ⟨hn, h⟩)
      · intro u hu hall
        refine i4 u (Or.inr ?_) (fun a ha => hall a (List.mem_cons_of_mem _ ha))
        have hub := hall b List.mem_cons_self hv
        simp only [Holds, add_zero] at hub
        rcases u3 with ⟨-, rfl⟩ | ⟨hrn, rfl⟩
        · exact hub
        · rcases hu with hu | hu
          · rw [hrn] at hu; cases hu
          · exact ⟨le_min hu.1 hub.1, le_min hu.2.1 hub.2.1, max_le hu.2.2.1 hub.2.2.1, max_le hu.2.2.2 hub.2.2.2⟩
    · simp only [List.foldl_cons, hv]
      obtain ⟨i1, i2, i3, i4⟩ := ih hs' r hr P hP
      refine ⟨i1, ?_, i3, ?_⟩
      · intro a ha hva
        rcases List.mem_cons.mp ha with rfl | ha
        · exact absurd hva hv
        · exact i2 a ha hva
      · intro u hu hall
        exact i4 u hu (fun a ha => hall a (List.mem_cons_of_mem _ ha))

/-- **C139**: the rectangle of the scene holds every visible container, with a twentieth of the smallest side of what they take on
every side; and it is no larger. -/
theorem C139_view (visible : ι → Bool) {size : ι → ℚ × ℚ} (pos : ι → ℚ × ℚ) (containers : List ι)
    (hs : ∀ a ∈ containers, visible a = true → 0 < (size a).1 ∧ 0 < (size a).2)
    (hv : ∃ a ∈ containers, visible a = true) :
    ∃ m : ℚ, 0 < m ∧
      (∀ a ∈ containers, visible a = true → Holds (sceneRect visible size pos containers) m (pos a) (size a)) ∧
      20 * m = min ((sceneRect visible size pos containers).right - (sceneRect visible size pos containers).left - 2 * m)
        ((sceneRect visible size pos containers).bottom - (sceneRect visible size pos containers).top - 2 * m) ∧
      ∀ u : Rect, (∀ a ∈ containers, visible a = true → Holds u m (pos a) (size a)) →
        u.left ≤ (sceneRect visible size pos containers).left ∧ u.top ≤ (sceneRect visible size pos containers).top ∧
        (sceneRect visible size pos containers).right ≤ u.right ∧
        (sceneRect visible size pos containers).bottom ≤ u.bottom := by
  obtain ⟨a0, ha0, hv0⟩ := hv
  obtain ⟨-, h2, -, h4⟩ := bounding_aux visible size pos containers hs ⟨0, 0, 0, 0⟩ (Or.inr (by simp [Rect.isNull]))
    (fun _ _ => False) (fun h => by simp [Rect.isNull] at h)
  change ∀ a ∈ containers, visible a = true → Holds (boundingRect visible size pos containers) 0 (pos a) (size a) at h2
  change ∀ u : Rect, _ → _ → (boundingRect visible size pos containers).isNull = true
    ∨ u.left ≤ (boundingRect visible size pos containers).left ∧ u.top ≤ (boundingRect visible size pos containers).top
      ∧ (boundingRect visible size pos containers).right ≤ u.right
      ∧ (boundingRect visible size pos containers).bottom ≤ u.bottom at h4
  have h0 := h2 a0 ha0 hv0
  have hs0 := hs a0 ha0 hv0
  unfold sceneRect
  generalize boundingRect visible size pos containers = t at *
  simp only [Holds, add_zero] at h0
  have hw : 0 < t.right - t.left := by linarith [h0.1, h0.2.2.1, hs0.1]
  have hh : 0 < t.bottom - t.top := by linarith [h0.2.1, h0.2.2.2, hs0.2]
  have hm : 0 < min (t.bottom - t.top) (t.right - t.left) := lt_min hh hw
  have htn : t.isNull = false := by
    simp only [Rect.isNull, decide_eq_false_iff_not, not_and]
    intro h; linarith
  refine ⟨min (t.bottom - t.top) (t.right - t.left) / 20, by linarith, fun a ha hva => ?_, ?_, fun u hu => ?_⟩
  · have := h2 a ha hva
    simp only [Holds, add_zero] at this
    simp only [Holds]
    obtain ⟨a1, a2, a3, a4⟩ := this
    refine ⟨?_, ?_, ?_, ?_⟩ <;> linarith
  · dsimp only
    generalize hmin : min (t.bottom - t.top) (t.right - t.left) = m at *
    rw [show t.right + m / 20 - (t.left - m / 20) - 2 * (m / 20) = t.right - t.left by ring,
      show t.bottom + m / 20 - (t.top - m / 20) - 2 * (m / 20) = t.bottom - t.top by ring, min_comm, hmin]
    ring
  · have := h4 ⟨u.left + min (t.bottom - t.top) (t.right - t.left) / 20, u.top + min (t.bottom - t.top) (t.right - t.left) / 20,
      u.right - min (t.bottom - t.top) (t.right - t.left) / 20, u.bottom - min (t.bottom - t.top) (t.right - t.left) / 20⟩
      (Or.inl (by simp [Rect.isNull])) (fun a ha hva => by
        have := hu a ha hva
        simp only [Holds, add_zero] at this ⊢
        obtain ⟨a1, a2, a3, a4⟩ := this
        refine ⟨?_, ?_, ?_, ?_⟩ <;> linarith)
    rw [htn] at this
    rcases this with h | ⟨a1, a2, a3, a4⟩
    · cases h
    · simp only at a1 a2 a3 a4 ⊢
      refine ⟨?_, ?_, ?_, ?_⟩ <;> linarith

example : sceneRect (· ≠ 1) exSize (fitScene (· ≠ 1) exSize [0, 1, 2] [3, 4, 5] fun _ => (7, 7)) [0, 1, 2, 3, 4, 5]
    = ⟨-100, -100, 2400, 2100⟩ := by decide +kernel

example : ∃ m : ℚ, 0 < m ∧ ∀ a ∈ [0, 1, 2, 3, 4, 5], decide (a ≠ 1) = true →
    Holds (sceneRect (· ≠ 1) exSize (fun _ => (7, 7)) [0, 1, 2, 3, 4, 5]) m (7, 7) (exSize a) := by
  obtain ⟨m, h1, h2, -⟩ := C139_view (· ≠ 1) (size := exSize) (fun _ => (7, 7)) [0, 1, 2, 3, 4, 5] (by decide +kernel)
    ⟨0, by decide, by decide⟩
  exact ⟨m, h1, h2⟩

end Verif.Layout
