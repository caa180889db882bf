import Verif.Spec.Vector2D
import Mathlib.Data.List.Forall2
import Mathlib.Tactic.ByContra

/-!
# Tables in memory behave like values
-/

namespace Angonoka.Memory
open Angonoka Outcome

/-- Elements of a span in the data of its block. -/
def slice (data : List Int) (s : Span) : List Int := (data.drop s.offset).take s.len

/-- The memory of table `t` holds `rows`. -/
def TableRep (heap : List (Option (List Int))) (t : Table) (rows : List (List Int)) : Prop :=
  ∃ data, heap[t.block]? = some (some data) ∧ rows = t.spans.map (slice data) ∧
    (∀ s ∈ t.spans, s.offset + s.len ≤ data.length ∧ (s.len ≠ 0 → s.block = t.block)) ∧
    t.spans.Pairwise fun a b => a.offset + a.len ≤ b.offset

/-- The world holds the values, and no two live tables share a block. -/
structure Rep (w : World) (v : Values) : Prop where
  len : w.tables.length = v.length
  live : ∀ (i : Nat) rows, v[i]? = some (some rows) →
    ∃ t, w.tables[i]? = some (some t) ∧ TableRep w.heap t rows
  dead : ∀ i : Nat, v[i]? = some none → w.tables[i]? = some none
  inj : ∀ (i j : Nat) t t', w.tables[i]? = some (some t) → w.tables[j]? = some (some t') →
    t.block = t'.block → i = j

theorem Rep.back {w : World} {v : Values} (h : Rep w v) {i : Nat} {t : Table}
    (ht : w.tables[i]? = some (some t)) :
    ∃ rows, v[i]? = some (some rows) ∧ TableRep w.heap t rows := by
  have hlt : i < v.length := h.len ▸ (List.getElem?_eq_some_iff.1 ht).1
  cases hv : v[i] with
  | none =>
    have := h.dead i (by rw [List.getElem?_eq_getElem hlt, hv])
    rw [ht] at this
    cases this
  | some rows =>
    have hv' : v[i]? = some (some rows) := by rw [List.getElem?_eq_getElem hlt, hv]
    obtain ⟨t', h1, h2⟩ := h.live i rows hv'
    rw [ht] at h1
    cases h1
    exact ⟨rows, hv', h2⟩

theorem TableRep.frame {heap heap' : List (Option (List Int))} {t : Table} {rows : List (List Int)}
    (h : TableRep heap t rows) (hh : heap'[t.block]? = heap[t.block]?) : TableRep heap' t rows := by
  obtain ⟨data, h1, h2⟩ := h
  exact ⟨data, hh.trans h1, h2⟩

theorem TableRep.lt {heap : List (Option (List Int))} {t : Table} {rows : List (List Int)}
    (h : TableRep heap t rows) : t.block < heap.length := by
  obtain ⟨data, h1, _⟩ := h
  exact (List.getElem?_eq_some_iff.1 h1).1

theorem Rep.block_lt {w : World} {v : Values} (h : Rep w v) {i : Nat} {t : Table}
    (ht : w.tables[i]? = some (some t)) : t.block < w.heap.length := by
  obtain ⟨_, _, h2⟩ := h.back ht
  exact h2.lt

theorem Rep.get {w : World} {v : Values} (h : Rep w v) {i : Nat} {rows : List (List Int)}
    (hi : v.get i = some rows) : ∃ t, w.table i = ok t ∧ w.tables[i]? = some (some t) ∧
      TableRep w.heap t rows ∧ v[i]? = some (some rows) := by
  have hv : v[i]? = some (some rows) := by
    unfold Values.get at hi
    cases h' : v[i]? with
    | none => rw [h'] at hi; cases hi
    | some o =>
      rw [h'] at hi
      simp only [Option.join_some] at hi
      rw [hi]
  obtain ⟨t, h1, h2⟩ := h.live i rows hv
  refine ⟨t, ?_, h1, h2, hv⟩
  unfold World.table
  rw [h1]

/-! ### Steps of memory management -/

theorem Rep.alloc {w : World} {v : Values} (h : Rep w v) (data : List Int) : Rep (w.alloc data) v where
  len := h.len
  live i rows hi := by
    obtain ⟨t, h1, h2⟩ := h.live i rows hi
    exact ⟨t, h1, h2.frame (List.getElem?_append_left h2.lt)⟩
  dead := h.dead
  inj := h.inj

theorem Rep.add {w : World} {v : Values} (h : Rep w v) {t : Table} {rows : List (List Int)}
    (ht : TableRep w.heap t rows)
    (hf : ∀ (i : Nat) t', w.tables[i]? = some (some t') → t'.block ≠ t.block) :
    Rep (w.add t) (v ++ [some rows]) := by
  have hcase : ∀ i : Nat, i < w.tables.length ∨ i = w.tables.length ∨
      (w.tables ++ [some t])[i]? = none ∧ (v ++ [some rows])[i]? = none := by
    intro i
    by_cases h1 : i < w.tables.length
    · exact Or.inl h1
    · by_cases h2 : i = w.tables.length
      · exact Or.inr (Or.inl h2)
      · have := h.len
        exact Or.inr (Or.inr ⟨List.getElem?_eq_none (by simp; omega),
          List.getElem?_eq_none (by simp; omega)⟩)
  have hL : ∀ i, i < w.tables.length → (w.tables ++ [some t])[i]? = w.tables[i]? :=
    fun i hi => List.getElem?_append_left hi
  have hLv : ∀ i, i < w.tables.length → (v ++ [some rows])[i]? = v[i]? :=
    fun i hi => List.getElem?_append_left (h.len ▸ hi)
  have hR : (w.tables ++ [some t])[w.tables.length]? = some (some t) := by simp
  have hRv : (v ++ [some rows])[w.tables.length]? = some (some rows) := by rw [h.len]; simp
  refine ⟨by simp [World.add, h.len], ?_, ?_, ?_⟩
  · intro i r hi
    rcases hcase i with h1 | h1 | h1
    · rw [hLv i h1] at hi
      obtain ⟨t', g1, g2⟩ := h.live i r hi
      exact ⟨t', (hL i h1).trans g1, g2⟩
    · subst h1
      rw [hRv] at hi
      cases hi
      exact ⟨t, hR, ht⟩
    · rw [h1.2] at hi
      cases hi
  · intro i hi
    rcases hcase i with h1 | h1 | h1
    · rw [hLv i h1] at hi
      exact (hL i h1).trans (h.dead i hi)
    · subst h1
      rw [hRv] at hi
      cases hi
    · rw [h1.2] at hi
      cases hi
  · intro i j t₁ t₂ hi hj hb
    have hi : (w.tables ++ [some t])[i]? = some (some t₁) := hi
    have hj : (w.tables ++ [some t])[j]? = some (some t₂) := hj
    rcases hcase i with h1 | h1 | h1
    · rw [hL i h1] at hi
      rcases hcase j with h2 | h2 | h2
      · rw [hL j h2] at hj
        exact h.inj i j t₁ t₂ hi hj hb
      · subst h2
        rw [hR] at hj
        cases hj
        exact absurd hb (hf i t₁ hi)
      · rw [h2.1] at hj
        cases hj
    · subst h1
      rw [hR] at hi
      cases hi
      rcases hcase j with h2 | h2 | h2
      · rw [hL j h2] at hj
        exact absurd hb.symm (hf j t₂ hj)
      · exact h2.symm
      · rw [h2.1] at hj
        cases hj
    · rw [h1.1] at hi
      cases hi

theorem Rep.put {w : World} {v : Values} (h : Rep w v) {i : Nat} {t : Table} {rows : List (List Int)}
    (ht : TableRep w.heap t rows)
    (hf : ∀ (j : Nat) t', j ≠ i → w.tables[j]? = some (some t') → t'.block ≠ t.block) :
    Rep (w.put i t) (v.set i (some rows)) := by
  refine ⟨by simp [World.put, h.len], ?_, ?_, ?_⟩
  · intro j r hj
    rw [List.getElem?_set] at hj
    show ∃ t', (w.tables.set i (some t))[j]? = some (some t') ∧ TableRep w.heap t' r
    rw [List.getElem?_set]
    by_cases hij : i = j
    · rw [if_pos hij] at hj ⊢
      split at hj
      · next hlt =>
        cases hj
        exact ⟨t, by rw [if_pos (h.len ▸ hlt)], ht⟩
      · cases hj
    · rw [if_neg hij] at hj ⊢
      exact h.live j r hj
  · intro j hj
    rw [List.getElem?_set] at hj
    show (w.tables.set i (some t))[j]? = some none
    rw [List.getElem?_set]
    by_cases hij : i = j
    · rw [if_pos hij] at hj
      split at hj <;> cases hj
    · rw [if_neg hij] at hj ⊢
      exact h.dead j hj
  · intro j k t₁ t₂ hj hk hb
    have hj : (w.tables.set i (some t))[j]? = some (some t₁) := hj
    have hk : (w.tables.set i (some t))[k]? = some (some t₂) := hk
    rw [List.getElem?_set] at hj hk
    by_cases hij : i = j
    · by_cases hik : i = k
      · omega
      · rw [if_neg hik] at hk
        rw [if_pos hij] at hj
        split at hj
        · cases hj
          exact absurd hb.symm (hf k t₂ (Ne.symm hik) hk)
        · cases hj
    · rw [if_neg hij] at hj
      by_cases hik : i = k
      · rw [if_pos hik] at hk
        split at hk
        · cases hk
          exact absurd hb (hf j t₁ (Ne.symm hij) hj)
        · cases hk
      · rw [if_neg hik] at hk
        exact h.inj j k t₁ t₂ hj hk hb

/-- Change a block that no live table uses. -/
theorem Rep.setBlock {w : World} {v : Values} (h : Rep w v) {b : Nat} (x : Option (List Int))
    (hf : ∀ (i : Nat) t', w.tables[i]? = some (some t') → t'.block ≠ b) :
    Rep { w with heap := w.heap.set b x } v where
  len := h.len
  live i rows hi := by
    obtain ⟨t, h1, h2⟩ := h.live i rows hi
    refine ⟨t, h1, h2.frame ?_⟩
    exact List.getElem?_set_ne (Ne.symm (hf i t h1))
  dead := h.dead
  inj := h.inj

/-- End the life of a table. -/
theorem Rep.kill {w : World} {v : Values} (h : Rep w v) (i : Nat) :
    Rep { w with tables := w.tables.set i none } (v.set i none) where
  len := by simp [h.len]
  live j rows hj := by
    rw [List.getElem?_set] at hj
    split at hj
    · split at hj <;> cases hj
    · next hij =>
      obtain ⟨t, h1, h2⟩ := h.live j rows hj
      exact ⟨t, by simpa [hij] using h1, h2⟩
  dead j hj := by
    rw [List.getElem?_set] at hj ⊢
    split at hj
    · next hij =>
      split at hj
      · next hlt => rw [if_pos hij, if_pos (h.len ▸ hlt)]
      · cases hj
    · next hij =>
      rw [if_neg hij]
      exact h.dead j hj
  inj j k t₁ t₂ hj hk hb := by
    rw [List.getElem?_set] at hj hk
    split at hj
    · split at hj <;> cases hj
    · split at hk
      · split at hk <;> cases hk
      · exact h.inj j k t₁ t₂ hj hk hb

/-! ### Creating and copying -/

theorem spansFrom_spec (b : Nat) (data : List Int) : ∀ (sizes : List Nat) (head : Nat),
    head + sizes.sum ≤ data.length →
    splitRows (data.drop head) sizes = (spansFrom b head sizes).map (slice data) ∧
    (∀ s ∈ spansFrom b head sizes, head ≤ s.offset ∧ s.offset + s.len ≤ data.length ∧ s.block = b) ∧
    (spansFrom b head sizes).Pairwise fun a b => a.offset + a.len ≤ b.offset := by
  intro sizes
  induction sizes with
  | nil => intro head _; simp [spansFrom, splitRows]
  | cons n sizes ih =>
    intro head h
    rw [List.sum_cons] at h
    obtain ⟨h1, h2, h3⟩ := ih (head + n) (by omega)
    refine ⟨?_, ?_, ?_⟩
    · rw [splitRows, spansFrom, List.map_cons, List.drop_drop, h1]
      rfl
    · intro s hs
      rw [spansFrom, List.mem_cons] at hs
      rcases hs with rfl | hs
      · exact ⟨Nat.le_refl _, by dsimp only; omega, rfl⟩
      · obtain ⟨g1, g2, g3⟩ := h2 s hs
        exact ⟨by omega, g2, g3⟩
    · rw [spansFrom, List.pairwise_cons]
      refine ⟨?_, h3⟩
      intro s hs
      exact (h2 s hs).1

theorem rebase_ok {front nb : Nat} : ∀ {spans : List Span},
    (∀ s ∈ spans, s.len ≠ 0 → s.block = front) →
    ∃ spans', rebase front nb spans = ok spans' ∧
      List.Forall₂ (fun s s' : Span => s'.offset = s.offset ∧ s'.len = s.len ∧
        (s'.len ≠ 0 → s'.block = nb)) spans spans' := by
  intro spans
  induction spans with
  | nil => intro _; exact ⟨[], rfl, .nil⟩
  | cons s spans ih =>
    intro h
    obtain ⟨spans', h1, h2⟩ := ih (fun s hs => h s (by simp [hs]))
    unfold rebase
    by_cases h0 : s.len = 0
    · rw [if_pos h0, h1, ok_bind]
      exact ⟨_, rfl, .cons ⟨rfl, rfl, fun hn => absurd h0 hn⟩ h2⟩
    · rw [if_neg h0, expects_true (by simpa using h s (by simp) h0), ok_bind, h1, ok_bind]
      exact ⟨_, rfl, .cons ⟨rfl, rfl, fun _ => rfl⟩ h2⟩

theorem copyOf_ok {w : World} {v : Values} (h : Rep w v) {t : Table} {rows : List (List Int)}
    (ht : TableRep w.heap t rows) :
    ∃ data t', w.copyOf t = ok (w.alloc data, t') ∧ t'.block = w.heap.length ∧
      TableRep (w.alloc data).heap t' rows := by
  obtain ⟨tb, tspans⟩ := t
  obtain ⟨data, h1, h2, h3, h4⟩ := ht
  dsimp only at h1 h2 h3 h4
  have hnew : ∀ d : List Int, (w.alloc d).heap[w.heap.length]? = some (some d) := by
    intro d
    simp [World.alloc]
  unfold World.copyOf
  dsimp only
  by_cases he : tspans.isEmpty
  · rw [if_pos he]
    have he' : tspans = [] := by simpa using he
    refine ⟨[], ⟨w.heap.length, []⟩, rfl, rfl, [], hnew _, ?_, by simp, by simp⟩
    rw [h2, he']
    rfl
  · rw [if_neg he]
    have hb : w.block tb = ok data := by
      unfold World.block
      rw [h1]
    rw [hb, ok_bind]
    by_cases hd : data.isEmpty
    · rw [if_pos hd]
      have hd' : data = [] := by simpa using hd
      refine ⟨data, ⟨w.heap.length, tspans⟩, rfl, rfl, data, hnew _, h2, ?_, h4⟩
      intro s hs
      have := (h3 s hs).1
      rw [hd'] at this
      simp only [List.length_nil] at this
      exact ⟨(h3 s hs).1, fun hn => absurd (by omega) hn⟩
    · rw [if_neg hd]
      obtain ⟨spans', g1, g2⟩ := rebase_ok (nb := w.heap.length) (fun s hs => (h3 s hs).2)
      rw [g1, ok_bind]
      refine ⟨data, ⟨w.heap.length, spans'⟩, rfl, rfl, data, hnew _, ?_, ?_, ?_⟩
      · rw [h2]
        clear h2 h3 h4 g1 he
        induction g2 with
        | nil => rfl
        | cons hs _ ih =>
          rw [List.map_cons, List.map_cons, ih]
          congr 1
          unfold slice
          rw [hs.1, hs.2.1]
      · intro s' hs'
        obtain ⟨k, hk, hk'⟩ := List.getElem_of_mem hs'
        have hk2 : k < tspans.length := by rw [g2.length_eq]; exact hk
        have := List.Forall₂.get g2 hk2 hk
        rw [List.get_eq_getElem, List.get_eq_getElem, hk'] at this
        have hb := (h3 _ (List.getElem_mem hk2)).1
        refine ⟨?_, this.2.2⟩
        rw [this.1, this.2.1]
        exact hb
      · clear h2 h3 g1 he
        induction g2 with
        | nil => exact .nil
        | @cons a b l₁ l₂ hs hrest ih =>
          rw [List.pairwise_cons] at h4 ⊢
          refine ⟨?_, ih h4.2⟩
          intro s' hs'
          obtain ⟨k, hk, hk'⟩ := List.getElem_of_mem hs'
          have hk2 : k < l₁.length := by rw [hrest.length_eq]; exact hk
          have := List.Forall₂.get hrest hk2 hk
          rw [List.get_eq_getElem, List.get_eq_getElem, hk'] at this
          rw [hs.1, hs.2.1, this.1]
          exact h4.1 _ (List.getElem_mem hk2)

/-! ### Writing -/

theorem slice_set_ne {data : List Int} {s : Span} {k : Nat} (x : Int)
    (h : k < s.offset ∨ s.offset + s.len ≤ k) : slice (data.set k x) s = slice data s := by
  unfold slice
  apply List.ext_getElem?
  intro n
  rw [List.getElem?_take, List.getElem?_take]
  split
  · next hn =>
    rw [List.getElem?_drop, List.getElem?_drop, List.getElem?_set_ne]
    omega
  · rfl

theorem slice_set {data : List Int} {s : Span} {c : Nat} (x : Int) (hc : c < s.len) :
    slice (data.set (s.offset + c) x) s = (slice data s).set c x := by
  unfold slice
  apply List.ext_getElem?
  intro n
  rw [List.getElem?_take, List.getElem?_set, List.getElem?_take]
  by_cases hn : n < s.len
  · rw [if_pos hn, if_pos hn, List.getElem?_drop, List.getElem?_set, List.getElem?_drop]
    by_cases hcn : c = n
    · subst hcn
      rw [if_pos rfl, if_pos rfl]
      simp only [List.length_take, List.length_drop]
      congr 1
      apply propext
      omega
    · rw [if_neg (by omega), if_neg hcn]
  · rw [if_neg hn, if_neg hn, if_neg (by omega)]

theorem slice_length {data : List Int} {s : Span} (h : s.offset + s.len ≤ data.length) :
    (slice data s).length = s.len := by
  unfold slice
  simp only [List.length_take, List.length_drop]
  omega

theorem write_ok {w : World} {v : Values} (h : Rep w v) {i r c : Nat} {x : Int}
    {rows : List (List Int)} {row : List Int} (hi : v.get i = some rows) (hr : rows[r]? = some row)
    (hc : c < row.length) :
    ∃ w', w.write i r c x = ok w' ∧ Rep w' (v.set i (some (rows.set r (row.set c x)))) := by
  obtain ⟨t, ht, ht', ⟨data, h1, h2, h3, h4⟩, hv⟩ := h.get hi
  have hs : ∃ s, t.spans[r]? = some s ∧ slice data s = row := by
    rw [h2, List.getElem?_map, Option.map_eq_some_iff] at hr
    exact hr
  obtain ⟨s, hs, hrow⟩ := hs
  obtain ⟨hb1, hb2⟩ := h3 s (List.mem_of_getElem? hs)
  have hlen : s.len = row.length := by rw [← hrow, slice_length hb1]
  have hblock : s.block = t.block := hb2 (by omega)
  unfold World.write
  rw [ht, ok_bind]
  simp only [hs]
  have hbl : w.block s.block = ok data := by
    unfold World.block
    rw [hblock, h1]
  rw [expects_true (by simpa using (by omega : c < s.len)), ok_bind, hbl, ok_bind,
    expects_true (by simpa using (by omega : s.offset + c < data.length)), ok_bind]
  refine ⟨_, rfl, ?_⟩
  have hnew : TableRep (w.heap.set s.block (some (data.set (s.offset + c) x))) t
      (rows.set r (row.set c x)) := by
    refine ⟨data.set (s.offset + c) x, ?_, ?_, ?_, h4⟩
    · rw [hblock, List.getElem?_set_self (List.getElem?_eq_some_iff.1 h1).1]
    · rw [h2]
      apply List.ext_getElem?
      intro n
      rw [List.getElem?_set, List.getElem?_map, List.getElem?_map]
      by_cases hrn : r = n
      · subst hrn
        rw [if_pos rfl, hs, List.length_map, if_pos (List.getElem?_eq_some_iff.1 hs).1,
          Option.map_some, slice_set x (by omega), hrow]
      · rw [if_neg hrn]
        cases hn : t.spans[n]? with
        | none => rfl
        | some s' =>
          rw [Option.map_some, Option.map_some, slice_set_ne]
          rw [List.pairwise_iff_getElem] at h4
          obtain ⟨k1, e1⟩ := List.getElem?_eq_some_iff.1 hs
          obtain ⟨k2, e2⟩ := List.getElem?_eq_some_iff.1 hn
          rcases Nat.lt_or_ge r n with hlt | hge
          · have := h4 r n k1 k2 hlt
            rw [e1, e2] at this
            omega
          · have := h4 n r k2 k1 (by omega)
            rw [e1, e2] at this
            omega
    · intro s' hs'
      rw [List.length_set]
      exact h3 s' hs'
  refine ⟨by simp [h.len], ?_, ?_, h.inj⟩
  · intro j rows' hj
    rw [List.getElem?_set] at hj
    split at hj
    · next hij =>
      split at hj
      · cases hj
        subst hij
        exact ⟨t, ht', hnew⟩
      · cases hj
    · next hij =>
      obtain ⟨t', g1, g2⟩ := h.live j rows' hj
      refine ⟨t', g1, g2.frame (List.getElem?_set_ne ?_)⟩
      rw [hblock]
      intro hb
      exact hij (h.inj i j t t' ht' g1 hb)
  · intro j hj
    rw [List.getElem?_set] at hj
    split at hj
    · split at hj <;> cases hj
    · exact h.dead j hj

/-! ### All operations -/

theorem step_ok {w : World} {v v' : Values} (h : Rep w v) {op : Op} (hv : v.step op = some v') :
    ∃ w', w.step op = ok w' ∧ Rep w' v' := by
  have hfresh : ∀ (i : Nat) t', w.tables[i]? = some (some t') → t'.block ≠ w.heap.length :=
    fun i t' ht' => Nat.ne_of_lt (h.block_lt ht')
  have hempty : ∀ data : List Int, TableRep (w.alloc data).heap ⟨w.heap.length, []⟩ [] :=
    fun data => ⟨data, by simp [World.alloc], rfl, by simp, by simp⟩
  cases op with
  | create data sizes =>
    simp only [Values.step] at hv
    split at hv
    · next hle =>
      cases hv
      refine ⟨_, rfl, ?_⟩
      unfold World.create
      obtain ⟨h1, h2, h3⟩ := spansFrom_spec w.heap.length data sizes 0 (by omega)
      rw [List.drop_zero] at h1
      refine (h.alloc data).add ⟨data, by simp [World.alloc], h1, ?_, h3⟩ hfresh
      intro s hs
      exact ⟨(h2 s hs).2.1, fun _ => (h2 s hs).2.2⟩
    · cases hv
  | copy i =>
    simp only [Values.step, Option.map_eq_some_iff] at hv
    obtain ⟨rows, hi, rfl⟩ := hv
    obtain ⟨t, ht, _, hrep, _⟩ := h.get hi
    obtain ⟨data, t', g1, g2, g3⟩ := copyOf_ok h hrep
    refine ⟨(w.alloc data).add t', ?_, (h.alloc data).add g3 ?_⟩
    · simp only [World.step, World.copy, ht, ok_bind, g1, pure_eq]
    · rw [g2]
      exact hfresh
  | assign i j =>
    simp only [Values.step, Option.bind_eq_bind, Option.bind_eq_some_iff] at hv
    obtain ⟨rows', hi, rows, hj, hv⟩ := hv
    cases hv
    obtain ⟨ti, hti, hti', _, _⟩ := h.get hi
    obtain ⟨tj, htj, _, hrep, _⟩ := h.get hj
    obtain ⟨data, t', g1, g2, g3⟩ := copyOf_ok h hrep
    refine ⟨((w.alloc data).free ti.block).put i t', ?_, ?_⟩
    · have hti2 : (w.alloc data).table i = ok ti := hti
      simp only [World.step, World.assign, htj, ok_bind, g1, hti2, pure_eq]
    · have h1 := (h.alloc data).put (i := i) g3 (by
        intro j' t'' _ hj'
        rw [g2]
        exact hfresh j' t'' hj')
      refine h1.setBlock (b := ti.block) none ?_
      intro k t'' hk
      have hk : (w.tables.set i (some t'))[k]? = some (some t'') := hk
      rw [List.getElem?_set] at hk
      split at hk
      · split at hk
        · cases hk
          rw [g2]
          exact Ne.symm (hfresh i ti hti')
        · cases hk
      · next hik =>
        intro hb
        exact hik (h.inj k i t'' ti hk hti' hb).symm
  | move i =>
    simp only [Values.step, Option.map_eq_some_iff] at hv
    obtain ⟨rows, hi, rfl⟩ := hv
    obtain ⟨t, ht, ht', hrep, _⟩ := h.get hi
    refine ⟨((w.alloc []).put i ⟨w.heap.length, []⟩).add t, ?_, ?_⟩
    · simp only [World.step, World.move, ht, ok_bind, pure_eq]
    · have h1 := (h.alloc []).put (i := i) (hempty []) (fun j t'' _ hj => hfresh j t'' hj)
      refine h1.add (hrep.frame (List.getElem?_append_left hrep.lt)) ?_
      intro k t'' hk
      have hk : (w.tables.set i (some ⟨w.heap.length, []⟩))[k]? = some (some t'') := hk
      rw [List.getElem?_set] at hk
      split at hk
      · split at hk
        · cases hk
          exact Ne.symm (hfresh i t ht')
        · cases hk
      · next hik =>
        intro hb
        exact hik (h.inj k i t'' t hk ht' hb).symm
  | moveAssign i j =>
    simp only [Values.step, Option.bind_eq_bind, Option.bind_eq_some_iff] at hv
    obtain ⟨rows', hi, rows, hj, hv⟩ := hv
    obtain ⟨ti, hti, hti', _, _⟩ := h.get hi
    obtain ⟨tj, htj, htj', hrep, _⟩ := h.get hj
    by_cases hij : i = j
    · rw [if_pos hij] at hv
      cases hv
      refine ⟨w, ?_, h⟩
      simp only [World.step, World.moveAssign, hti, ok_bind, if_pos hij, pure_eq]
    · rw [if_neg hij] at hv
      cases hv
      refine ⟨(((w.free ti.block).alloc []).put i tj).put j ⟨w.heap.length, []⟩, ?_, ?_⟩
      · simp only [World.step, World.moveAssign, hti, htj, ok_bind, if_neg hij, pure_eq]
      · -- empty the source first, then hand its block to the target
        have h1 := (h.alloc []).put (i := j) (hempty []) (fun j' t'' _ hj' => hfresh j' t'' hj')
        have hget : ∀ (k : Nat) t'', (w.tables.set j (some ⟨w.heap.length, []⟩))[k]? = some (some t'') →
            t''.block = w.heap.length ∨ k ≠ j ∧ w.tables[k]? = some (some t'') := by
          intro k t'' hk
          rw [List.getElem?_set] at hk
          split at hk
          · split at hk
            · cases hk
              exact Or.inl rfl
            · cases hk
          · next hjk => exact Or.inr ⟨Ne.symm hjk, hk⟩
        have h2 := h1.put (i := i) (hrep.frame (List.getElem?_append_left hrep.lt)) (by
          intro k t'' _ hk hb
          rcases hget k t'' hk with h' | ⟨h', h''⟩
          · exact hfresh j tj htj' (hb ▸ h')
          · exact h' (h.inj k j t'' tj h'' htj' hb))
        have h3 := h2.setBlock (b := ti.block) none (by
          intro k t'' hk hb
          have hk : ((w.tables.set j (some ⟨w.heap.length, []⟩)).set i (some tj))[k]?
            = some (some t'') := hk
          rw [List.getElem?_set] at hk
          split at hk
          · split at hk
            · cases hk
              exact hij (h.inj i j ti tj hti' htj' hb.symm)
            · cases hk
          · next hik =>
            rcases hget k t'' hk with h' | ⟨_, h''⟩
            · exact hfresh i ti hti' (hb ▸ h')
            · exact hik (h.inj k i t'' ti h'' hti' hb).symm)
        have e1 : (v.set j (some [])).set i (some rows) = (v.set i (some rows)).set j (some []) :=
          List.set_comm _ _ (Ne.symm hij)
        rw [e1] at h3
        refine cast ?_ h3
        congr 1
        simp only [World.put, World.alloc, World.free, World.mk.injEq]
        refine ⟨?_, List.set_comm _ _ (Ne.symm hij)⟩
        rw [List.set_append_left _ _ (h.block_lt hti')]
  | clear i =>
    simp only [Values.step, Option.map_eq_some_iff] at hv
    obtain ⟨rows, hi, rfl⟩ := hv
    obtain ⟨t, ht, ht', hrep, _⟩ := h.get hi
    refine ⟨({ w with heap := w.heap.set t.block (some []) } : World).put i ⟨t.block, []⟩, ?_, ?_⟩
    · simp only [World.step, World.clear, ht, ok_bind, pure_eq]
    · -- kill the table, change its block, revive it
      have h1 := (h.kill i).setBlock (b := t.block) (some []) (by
        intro k t'' hk hb
        rw [List.getElem?_set] at hk
        split at hk
        · split at hk <;> cases hk
        · next hik => exact hik (h.inj k i t'' t hk ht' hb).symm)
      have h2 := h1.put (i := i) (t := ⟨t.block, []⟩) (rows := [])
        ⟨[], List.getElem?_set_self hrep.lt, rfl, by simp, by simp⟩ (by
          intro k t'' hki hk hb
          have hk : (w.tables.set i none)[k]? = some (some t'') := hk
          rw [List.getElem?_set_ne (Ne.symm hki)] at hk
          exact hki (h.inj k i t'' t hk ht' hb))
      simpa [World.put, List.set_set] using h2
  | destroy i =>
    simp only [Values.step, Option.map_eq_some_iff] at hv
    obtain ⟨rows, hi, rfl⟩ := hv
    obtain ⟨t, ht, ht', hrep, _⟩ := h.get hi
    refine ⟨{ w.free t.block with tables := w.tables.set i none }, ?_, ?_⟩
    · simp only [World.step, World.destroy, ht, ok_bind, pure_eq]
    · refine (h.kill i).setBlock (b := t.block) none ?_
      intro k t'' hk hb
      rw [List.getElem?_set] at hk
      split at hk
      · split at hk <;> cases hk
      · next hik => exact hik (h.inj k i t'' t hk ht' hb).symm
  | write i r c x =>
    simp only [Values.step, Option.bind_eq_bind, Option.bind_eq_some_iff] at hv
    obtain ⟨rows, hi, row, hr, hv⟩ := hv
    split at hv
    · next hc =>
      cases hv
      exact write_ok h hi hr hc
    · cases hv

theorem run_ok {w : World} {v v' : Values} (h : Rep w v) {ops : List Op} (hv : v.run ops = some v') :
    ∃ w', w.run ops = ok w' ∧ Rep w' v' := by
  induction ops generalizing w v with
  | nil => cases hv; exact ⟨w, rfl, h⟩
  | cons op ops ih =>
    simp only [Values.run, Option.bind_eq_bind, Option.bind_eq_some_iff] at hv
    obtain ⟨v₁, h1, h2⟩ := hv
    obtain ⟨w₁, g1, g2⟩ := step_ok h h1
    obtain ⟨w₂, g3, g4⟩ := ih g2 h2
    exact ⟨w₂, by rw [World.run, g1, ok_bind, g3], g4⟩

theorem read_ok {w : World} {v : Values} (h : Rep w v) {i : Nat} {rows : List (List Int)}
    (hi : v.get i = some rows) : w.read i = ok rows := by
  obtain ⟨t, ht, _, ⟨data, h1, h2, h3, _⟩, _⟩ := h.get hi
  unfold World.read
  rw [ht, ok_bind, h2]
  generalize t.spans = spans at h3
  induction spans with
  | nil => rfl
  | cons s spans ih =>
    have hs : w.readSpan s = ok (slice data s) := by
      obtain ⟨g1, g2⟩ := h3 s (by simp)
      unfold World.readSpan
      by_cases h0 : s.len = 0
      · rw [if_pos h0]
        simp [slice, h0]
      · rw [if_neg h0]
        have hb : w.block s.block = ok data := by
          unfold World.block
          rw [g2 h0, h1]
        rw [hb, ok_bind, expects_true (by simpa using g1), ok_bind]
        rfl
    rw [List.mapM_cons, hs, ok_bind, ih (fun s hs => h3 s (by simp [hs])), ok_bind]
    rfl

theorem rep_empty : Rep ⟨[], []⟩ [] where
  len := rfl
  live i rows h := by cases h
  dead i h := by cases h
  inj i j t t' h := by cases h

end Angonoka.Memory
