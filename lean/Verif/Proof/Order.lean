import Mathlib.Data.List.Perm.Basic
import Mathlib.Data.List.Forall2
import Mathlib.Data.Option.Basic
import Verif.Spec.Order
import Verif.Spec.Documented
import Verif.Proof.Paths
import Verif.Proof.Schema

/-!
# Documents in another order
-/

namespace Angonoka.Doc
open Angonoka Validation

theorem Moved.symm {m n : Yaml} (h : Moved m n) : Moved n m := by
  induction h with
  | elements a x y b => exact .elements a y x b
  | entries a x y b => exact .entries a y x b
  | inElement a b _ ih => exact .inElement a b ih
  | inEntry a k b _ ih => exact .inEntry a k b ih

theorem Reordered.symm {m n : Yaml} (h : Reordered m n) : Reordered n m := by
  unfold Reordered at *
  induction h with
  | refl => exact .refl
  | tail _ h ih => exact .head h.symm ih

theorem Reordered.refl (n : Yaml) : Reordered n n := Relation.ReflTransGen.refl

theorem Reordered.trans {l m n : Yaml} (h : Reordered l m) (h' : Reordered m n) : Reordered l n :=
  Relation.ReflTransGen.trans h h'

/-- The lists have related elements, in another order: element `i` is now element `π i`. -/
def Along {α : Type} (R : α → α → Prop) (l l' : List α) : Prop :=
  ∃ π : Nat → Nat, Function.Bijective π ∧ ∀ i, Option.Rel R l[i]? l'[π i]?

section
variable {α : Type} {R : α → α → Prop} {l l' l'' : List α}

theorem rel_refl (hR : ∀ x, R x x) (o : Option α) : Option.Rel R o o := by
  cases o with
  | none => exact .none
  | some x => exact .some (hR x)

theorem rel_trans (hR : ∀ x y z, R x y → R y z → R x z) {a b c : Option α} (h : Option.Rel R a b) (h' : Option.Rel R b c) :
    Option.Rel R a c := by
  cases h with
  | none => exact h'
  | some h => cases h' with | some h' => exact .some (hR _ _ _ h h')

theorem Along.refl (hR : ∀ x, R x x) (l : List α) : Along R l l :=
  ⟨id, Function.bijective_id, fun _ => rel_refl hR _⟩

theorem Along.trans (hR : ∀ x y z, R x y → R y z → R x z) (h : Along R l l') (h' : Along R l' l'') : Along R l l'' := by
  obtain ⟨π, h1, h2⟩ := h
  obtain ⟨ρ, h3, h4⟩ := h'
  exact ⟨ρ ∘ π, h3.comp h1, fun i => rel_trans hR (h2 i) (h4 _)⟩

theorem Along.inside (hR : ∀ x, R x x) (a : List α) {x y : α} (b : List α) (h : R x y) : Along R (a ++ x :: b) (a ++ y :: b) := by
  refine ⟨id, Function.bijective_id, fun i => ?_⟩
  rw [id]
  rcases Nat.lt_trichotomy i a.length with hi | hi | hi
  · rw [List.getElem?_append_left hi, List.getElem?_append_left hi]
    exact rel_refl hR _
  · subst hi
    simpa using Option.Rel.some h
  · obtain ⟨j, rfl⟩ := Nat.exists_eq_add_of_lt hi
    rw [List.getElem?_append_right (by omega), List.getElem?_append_right (by omega),
      show a.length + j + 1 - a.length = j + 1 by omega, List.getElem?_cons_succ, List.getElem?_cons_succ]
    exact rel_refl hR _

theorem Along.swap (hR : ∀ x, R x x) (a : List α) (x y : α) (b : List α) : Along R (a ++ x :: y :: b) (a ++ y :: x :: b) := by
  refine ⟨Equiv.swap a.length (a.length + 1), (Equiv.swap a.length (a.length + 1)).bijective, fun i => ?_⟩
  by_cases h0 : i = a.length
  · subst h0
    rw [Equiv.swap_apply_left]
    simpa using Option.Rel.some (hR x)
  by_cases h1 : i = a.length + 1
  · subst h1
    rw [Equiv.swap_apply_right]
    simpa using Option.Rel.some (hR y)
  rw [Equiv.swap_apply_of_ne_of_ne h0 h1]
  rcases Nat.lt_or_ge i a.length with hi | hi
  · rw [List.getElem?_append_left hi, List.getElem?_append_left hi]
    exact rel_refl hR _
  · obtain ⟨j, rfl⟩ := Nat.exists_eq_add_of_le hi
    obtain ⟨k, rfl⟩ : ∃ k, j = k + 2 := ⟨j - 2, by omega⟩
    rw [List.getElem?_append_right (by omega), List.getElem?_append_right (by omega),
      show a.length + (k + 2) - a.length = k + 1 + 1 by omega]
    simp only [List.getElem?_cons_succ]
    exact rel_refl hR _

theorem Along.some (h : Along R l l') {x : α} (hx : x ∈ l) : ∃ y ∈ l', R x y := by
  obtain ⟨π, _, h2⟩ := h
  obtain ⟨i, hi⟩ := List.mem_iff_getElem?.1 hx
  have := h2 i
  rw [hi] at this
  generalize hy : l'[π i]? = o at this
  cases this with
  | some h => exact ⟨_, List.mem_of_getElem? hy, h⟩

end

/-- An entry of a map and the same entry with its value in another order -/
def SameEntry (e f : Yaml × Yaml) : Prop := e.1 = f.1 ∧ Reordered e.2 f.2

theorem sameEntry_refl (e : Yaml × Yaml) : SameEntry e e := ⟨rfl, .refl _⟩

theorem sameEntry_trans (e f g : Yaml × Yaml) (h : SameEntry e f) (h' : SameEntry f g) : SameEntry e g :=
  ⟨h.1.trans h'.1, h.2.trans h'.2⟩

/-- What can be on the other side -/
theorem Reordered.cases {m n : Yaml} (h : Reordered m n) :
    (m = .null ∧ n = .null) ∨ (∃ s, m = .scalar s ∧ n = .scalar s) ∨ (∃ l l', m = .seq l ∧ n = .seq l' ∧ Along Reordered l l') ∨
      ∃ l l', m = .map l ∧ n = .map l' ∧ Along SameEntry l l' ∧ (l.map Prod.fst).Perm (l'.map Prod.fst) := by
  unfold Reordered at h
  induction h with
  | refl =>
    cases m with
    | null => exact Or.inl ⟨rfl, rfl⟩
    | scalar s => exact Or.inr (Or.inl ⟨s, rfl, rfl⟩)
    | seq l => exact Or.inr (Or.inr (Or.inl ⟨l, l, rfl, rfl, .refl .refl l⟩))
    | map l => exact Or.inr (Or.inr (Or.inr ⟨l, l, rfl, rfl, .refl sameEntry_refl l, .refl _⟩))
  | tail _ h ih =>
    cases h with
    | elements a x y b =>
      rcases ih with ⟨_, ⟨⟩⟩ | ⟨_, _, ⟨⟩⟩ | ⟨l, _, rfl, ⟨⟩, ih⟩ | ⟨_, _, _, ⟨⟩, _⟩
      exact Or.inr (Or.inr (Or.inl ⟨l, _, rfl, rfl, ih.trans (fun _ _ _ => Reordered.trans) (.swap .refl a x y b)⟩))
    | inElement a b h =>
      rcases ih with ⟨_, ⟨⟩⟩ | ⟨_, _, ⟨⟩⟩ | ⟨l, _, rfl, ⟨⟩, ih⟩ | ⟨_, _, _, ⟨⟩, _⟩
      exact Or.inr (Or.inr (Or.inl ⟨l, _, rfl, rfl,
        ih.trans (fun _ _ _ => Reordered.trans) (.inside .refl a b (Relation.ReflTransGen.single h))⟩))
    | entries a x y b =>
      rcases ih with ⟨_, ⟨⟩⟩ | ⟨_, _, ⟨⟩⟩ | ⟨_, _, _, ⟨⟩, _⟩ | ⟨l, _, rfl, ⟨⟩, ih, ih'⟩
      refine Or.inr (Or.inr (Or.inr ⟨l, _, rfl, rfl, ih.trans sameEntry_trans (.swap sameEntry_refl a x y b), ih'.trans ?_⟩))
      exact ((List.Perm.swap _ _ _).append_left a).map _
    | inEntry a k b h =>
      rcases ih with ⟨_, ⟨⟩⟩ | ⟨_, _, ⟨⟩⟩ | ⟨_, _, _, ⟨⟩, _⟩ | ⟨l, _, rfl, ⟨⟩, ih, ih'⟩
      refine Or.inr (Or.inr (Or.inr ⟨l, _, rfl, rfl,
        ih.trans sameEntry_trans (.inside sameEntry_refl a b ⟨rfl, Relation.ReflTransGen.single h⟩), ih'.trans ?_⟩))
      simp

variable {m n : Yaml}

theorem Reordered.of_scalar {s : String} (h : Reordered (.scalar s) n) : n = .scalar s := by
  rcases h.cases with ⟨⟨⟩, _⟩ | ⟨_, ⟨⟩, e⟩ | ⟨_, _, ⟨⟩, _⟩ | ⟨_, _, ⟨⟩, _⟩
  exact e

theorem Reordered.of_seq {l : List Yaml} (h : Reordered (.seq l) n) : ∃ l', n = .seq l' ∧ Along Reordered l l' := by
  rcases h.cases with ⟨⟨⟩, _⟩ | ⟨_, ⟨⟩, e⟩ | ⟨_, l', ⟨⟩, e, h⟩ | ⟨_, _, ⟨⟩, _⟩
  exact ⟨l', e, h⟩

theorem Reordered.of_map {l : List (Yaml × Yaml)} (h : Reordered (.map l) n) :
    ∃ l', n = .map l' ∧ Along SameEntry l l' ∧ (l.map Prod.fst).Perm (l'.map Prod.fst) := by
  rcases h.cases with ⟨⟨⟩, _⟩ | ⟨_, ⟨⟩, e⟩ | ⟨_, _, ⟨⟩, _⟩ | ⟨_, l', ⟨⟩, e, h⟩
  exact ⟨l', e, h⟩

theorem Reordered.field (h : Reordered m n) {key : String} {v : Yaml} (hf : Field m key v) : ∃ w, Field n key w ∧ Reordered v w := by
  obtain ⟨es, rfl, he⟩ := hf
  obtain ⟨es', rfl, ha, _⟩ := h.of_map
  obtain ⟨⟨k, w⟩, hw, e, hr⟩ := ha.some he
  dsimp only at e hr
  subst e
  exact ⟨w, ⟨es', rfl, hw⟩, hr⟩

theorem Reordered.scalarField (h : Reordered m n) {key s : String} (hf : Field m key (.scalar s)) : Field n key (.scalar s) := by
  obtain ⟨w, hw, hr⟩ := h.field hf
  rw [hr.of_scalar] at hw
  exact hw

theorem Reordered.seqField (h : Reordered m n) {key : String} {l : List Yaml} (hf : Field m key (.seq l)) :
    ∃ l', Field n key (.seq l') ∧ Along Reordered l l' := by
  obtain ⟨w, hw, hr⟩ := h.field hf
  obtain ⟨l', rfl, ha⟩ := hr.of_seq
  exact ⟨l', hw, ha⟩

theorem Along.scalar {l l' : List Yaml} (h : Along Reordered l l') {s : String} (hs : Yaml.scalar s ∈ l) : Yaml.scalar s ∈ l' := by
  obtain ⟨y, hy, hr⟩ := h.some hs
  rw [hr.of_scalar] at hy
  exact hy

theorem Reordered.hasKeys (h : Reordered m n) {a r : List String} (hk : HasKeys a r m) : HasKeys a r n := by
  rcases hk with ⟨rfl, hr⟩ | ⟨es, names, rfl, h1, h2, h3, h4⟩
  · rcases h.cases with ⟨_, rfl⟩ | ⟨_, ⟨⟩, _⟩ | ⟨_, _, ⟨⟩, _⟩ | ⟨_, _, ⟨⟩, _⟩
    exact Or.inl ⟨rfl, hr⟩
  · obtain ⟨es', rfl, _, hp⟩ := h.of_map
    rw [h1] at hp
    have hp' : names.Perm ((es'.map Prod.fst).map Yaml.text) := by
      have := hp.map Yaml.text
      rw [List.map_map] at this
      have e : names.map (Yaml.text ∘ Yaml.scalar) = names := by
        rw [show Yaml.text ∘ Yaml.scalar = id from rfl, List.map_id]
      rwa [e] at this
    refine Or.inr ⟨es', (es'.map Prod.fst).map Yaml.text, rfl, ?_, hp'.nodup_iff.1 h2, fun x hx => h3 x (hp'.mem_iff.2 hx),
      fun x hx => hp'.mem_iff.1 (h4 x hx)⟩
    rw [List.map_map]
    symm
    conv_rhs => rw [← List.map_id (es'.map Prod.fst)]
    refine List.map_congr_left fun x hx => ?_
    obtain ⟨s, _, rfl⟩ := List.mem_map.1 (hp.mem_iff.2 hx)
    rfl

theorem Reordered.isText (h : Reordered m n) (hm : IsText m) : IsText n := by
  obtain ⟨s, rfl⟩ := hm
  exact ⟨s, h.of_scalar⟩

theorem Reordered.isTexts (h : Reordered m n) (hm : IsTexts m) : IsTexts n := by
  obtain ⟨l, rfl, hl⟩ := hm
  obtain ⟨l', rfl, ⟨π, h1, h2⟩⟩ := h.of_seq
  refine ⟨l', rfl, fun x hx => ?_⟩
  obtain ⟨j, hj⟩ := List.mem_iff_getElem?.1 hx
  obtain ⟨i, rfl⟩ := h1.2 j
  have := h2 i
  rw [hj] at this
  generalize hy : l[i]? = o at this
  cases this with
  | some h => exact h.isText (hl _ (List.mem_of_getElem? hy))

theorem Reordered.isRange (h : Reordered m n) (hm : IsRange m) : IsRange n := by
  rcases hm with hm | ⟨h1, h2, h3⟩
  · exact Or.inl (h.isText hm)
  · refine Or.inr ⟨h.hasKeys h1, fun v hv => ?_, fun v hv => ?_⟩
    · obtain ⟨w, hw, hr⟩ := h.symm.field hv
      exact hr.symm.isText (h2 w hw)
    · obtain ⟨w, hw, hr⟩ := h.symm.field hv
      exact hr.symm.isText (h3 w hw)

theorem Along.symm {α : Type} {R : α → α → Prop} (hR : ∀ x y, R x y → R y x) {l l' : List α} (h : Along R l l') : Along R l' l := by
  obtain ⟨π, h1, h2⟩ := h
  obtain ⟨ρ, h3, h4⟩ := Function.bijective_iff_has_inverse.1 h1
  refine ⟨ρ, Function.bijective_iff_has_inverse.2 ⟨π, h4, h3⟩, fun j => ?_⟩
  have := h2 (ρ j)
  rw [h4 j] at this
  generalize l'[j]? = o at *
  generalize l[ρ j]? = o' at *
  cases this with
  | none => exact .none
  | some h => exact .some (hR _ _ h)

theorem Reordered.isTask (h : Reordered m n) (hm : IsTask m) : IsTask n := by
  induction hm generalizing n with
  | @mk m keys group groups agent name id dependsOn duration subtasks subtask ih =>
    have key : ∀ {k : String} {P : Yaml → Prop}, (∀ v w, Reordered v w → P v → P w) → (∀ v, Field m k v → P v) →
        ∀ v, Field n k v → P v := by
      intro k P hP hm v hv
      obtain ⟨w, hw, hr⟩ := h.symm.field hv
      exact hP w v hr.symm (hm w hw)
    have texts : ∀ v w, Reordered v w → IsText v → IsText w := fun v w h => h.isText
    refine ⟨h.hasKeys keys, key texts group, key (fun v w h => h.isTexts) groups, key texts agent, key texts name, key texts id,
      key (fun v w h => Or.imp h.isText h.isTexts) dependsOn, key (fun v w h => h.isRange) duration,
      key (fun v w h => ?_) subtasks, fun l x hl hx => ?_⟩
    · rintro ⟨l, rfl⟩
      obtain ⟨l', rfl, _⟩ := h.of_seq
      exact ⟨l', rfl⟩
    · obtain ⟨l', hl', ha⟩ := h.symm.seqField hl
      obtain ⟨y, hy, hr⟩ := ha.some hx
      exact ih l' y hl' hy hr.symm

theorem Reordered.isAgent (h : Reordered m n) (hm : IsAgent m) : IsAgent n := by
  obtain ⟨h1, h2, h3⟩ := hm
  refine ⟨h.hasKeys h1, fun v hv => ?_, fun v hv => ?_⟩
  · obtain ⟨w, hw, hr⟩ := h.symm.field hv
    exact hr.symm.isRange (h2 w hw)
  · obtain ⟨w, hw, hr⟩ := h.symm.field hv
    exact hr.symm.isTexts (h3 w hw)

theorem sameEntry_symm (e f : Yaml × Yaml) (h : SameEntry e f) : SameEntry f e := ⟨h.1.symm, h.2.symm⟩

theorem Reordered.isConfiguration (h : Reordered m n) (hm : IsConfiguration m) : IsConfiguration n := by
  obtain ⟨h1, h2, h3⟩ := hm
  refine ⟨h.hasKeys h1, fun v hv => ?_, fun v hv => ?_⟩
  · obtain ⟨w, hw, hr⟩ := h.symm.field hv
    obtain ⟨es, rfl, hes⟩ := h2 w hw
    obtain ⟨es', rfl, ha, _⟩ := hr.symm.of_map
    refine ⟨es', rfl, fun e he => ?_⟩
    obtain ⟨f, hf, _, hr⟩ := (ha.symm sameEntry_symm).some he
    exact hr.symm.isAgent (hes f hf)
  · obtain ⟨w, hw, hr⟩ := h.symm.field hv
    obtain ⟨l, rfl, hl⟩ := h3 w hw
    obtain ⟨l', rfl, ha⟩ := hr.symm.of_seq
    refine ⟨l', rfl, fun e he => ?_⟩
    obtain ⟨f, hf, hr⟩ := (ha.symm fun _ _ => Reordered.symm).some he
    exact hr.symm.isTask (hl f hf)

/-! ### What is written for tasks and agents -/

theorem Reordered.taskGroup (h : Reordered m n) {g : String} (hg : TaskGroup m g) : TaskGroup n g := by
  rcases hg with hg | ⟨l, hl, hm⟩
  · exact Or.inl (h.scalarField hg)
  · obtain ⟨l', hl', ha⟩ := h.seqField hl
    exact Or.inr ⟨l', hl', ha.scalar hm⟩

theorem Reordered.dependsOnId (h : Reordered m n) {g : String} (hg : DependsOnId m g) : DependsOnId n g := by
  rcases hg with hg | ⟨l, hl, hm⟩
  · exact Or.inl (h.scalarField hg)
  · obtain ⟨l', hl', ha⟩ := h.seqField hl
    exact Or.inr ⟨l', hl', ha.scalar hm⟩

theorem SameEntry.agentGroup {e f : Yaml × Yaml} (h : SameEntry e f) {g : String} (hg : AgentGroup e g) : AgentGroup f g := by
  obtain ⟨l, hl, hm⟩ := hg
  obtain ⟨l', hl', ha⟩ := h.2.seqField hl
  exact ⟨l', hl', ha.scalar hm⟩

theorem Reordered.duration (h : Reordered m n) {lo hi : Nat} (hd : Duration m lo hi) : Duration n lo hi := by
  rcases hd with ⟨s, h1, h2⟩ | ⟨v, a, b, h1, h2, h3, h4⟩
  · exact Or.inl ⟨s, h.scalarField h1, h2⟩
  · obtain ⟨w, hw, hr⟩ := h.field h1
    exact Or.inr ⟨w, a, b, hw, hr.scalarField h2, hr.scalarField h3, h4⟩

theorem Reordered.inDuration (h : Reordered m n) {s : String} (hd : InDuration m s) : InDuration n s := by
  rcases hd with h1 | ⟨v, h1, h2⟩
  · exact Or.inl (h.scalarField h1)
  · obtain ⟨w, hw, hr⟩ := h.field h1
    exact Or.inr ⟨w, hw, h2.imp hr.scalarField hr.scalarField⟩

theorem Reordered.inPerformance (h : Reordered m n) {s : String} (hd : InPerformance m s) : InPerformance n s := by
  rcases hd with h1 | ⟨v, h1, h2⟩
  · exact Or.inl (h.scalarField h1)
  · obtain ⟨w, hw, hr⟩ := h.field h1
    exact Or.inr ⟨w, hw, h2.imp hr.scalarField hr.scalarField⟩

theorem Reordered.anyField (h : Reordered m n) {k : String} (hf : ∃ v, Field m k v) : ∃ v, Field n k v := by
  obtain ⟨v, hv⟩ := hf
  obtain ⟨w, hw, _⟩ := h.field hv
  exact ⟨w, hw⟩

theorem Reordered.performance (h : Reordered m n) {rf : String → Option XFloat} {lo hi : XFloat} (hp : Performance rf m lo hi) :
    Performance rf n lo hi := by
  rcases hp with ⟨h1, h2⟩ | ⟨s, h1, h2⟩ | ⟨v, a, b, h1, h2, h3, h4⟩
  · exact Or.inl ⟨fun hc => h1 (h.symm.anyField hc), h2⟩
  · exact Or.inr (Or.inl ⟨s, h.scalarField h1, h2⟩)
  · obtain ⟨w, hw, hr⟩ := h.field h1
    exact Or.inr (Or.inr ⟨w, a, b, hw, hr.scalarField h2, hr.scalarField h3, h4⟩)

theorem SameEntry.mayDo {e f : Yaml × Yaml} (he : SameEntry e f) (h : Reordered m n) (hm : MayDo e m) : MayDo f n := by
  rcases hm with ⟨s, h1, h2⟩ | ⟨h1, h2⟩
  · exact Or.inl ⟨s, h.scalarField h1, he.1 ▸ h2⟩
  · refine Or.inr ⟨fun hc => h1 (h.symm.anyField hc), h2.imp (fun h g hg => h g ((sameEntry_symm _ _ he).agentGroup hg)) ?_⟩
    rintro ⟨⟨g, hg⟩, h2⟩
    exact ⟨⟨g, h.taskGroup hg⟩, fun g hg => he.agentGroup (h2 g (h.symm.taskGroup hg))⟩

theorem SameEntry.takes {e f : Yaml × Yaml} (he : SameEntry e f) (h : Reordered m n) {rf : String → Option XFloat} {x : ℚ}
    (ht : Takes rf e m x) : Takes rf f n x := by
  obtain ⟨lo, hi, slow, fast, h1, h2, h3⟩ := ht
  exact ⟨lo, hi, slow, fast, h.duration h1, he.2.performance h2, h3⟩

/-! ### The tree of tasks -/

theorem shifted_aux (N : Nat) :
    (∀ n : Yaml, sizeOf n < N → ∀ p path, tasksAt (p ++ path) n = (tasksAt path n).map fun q => (p ++ q.1, q.2)) ∧
    (∀ l : List Yaml, sizeOf l < N → ∀ p path k, listAt (p ++ path) k l = (listAt path k l).map fun q => (p ++ q.1, q.2)) := by
  induction N with
  | zero => exact ⟨fun _ h => absurd h (by omega), fun _ h => absurd h (by omega)⟩
  | succ N ih =>
    have hlist : ∀ l : List Yaml, sizeOf l < N + 1 → ∀ p path k,
        listAt (p ++ path) k l = (listAt path k l).map fun q => (p ++ q.1, q.2) := by
      intro l hl p path k
      cases l with
      | nil => rw [listAt, listAt, List.map_nil]
      | cons n rest =>
        simp only [List.cons.sizeOf_spec] at hl
        rw [listAt, listAt, List.map_append, List.append_assoc, ih.1 n (by omega), ih.2 rest (by omega)]
    refine ⟨?_, hlist⟩
    intro n hn p path
    have hs : sizeOf (subs n) < N + 1 := by
      rcases sizeOf_subs n with h | h
      · omega
      · rw [h]
        have : 0 < sizeOf n := by cases n <;> simp
        simp
        omega
    rw [tasksAt_eq, tasksAt_eq, hlist _ hs, List.map_cons]

theorem mem_tasksAt {path s : List Nat} {n m : Yaml} :
    (s, m) ∈ tasksAt path n ↔ ∃ t, s = path ++ t ∧ (t, m) ∈ tasksAt [] n := by
  have := (shifted_aux (sizeOf n + 1)).1 n (by omega) path []
  rw [List.append_nil] at this
  rw [this, List.mem_map]
  constructor
  · rintro ⟨⟨t, m'⟩, h, e⟩
    cases e
    exact ⟨t, rfl, h⟩
  · rintro ⟨t, rfl, h⟩
    exact ⟨(t, m), h, rfl⟩

theorem mem_listAt {s : List Nat} {m : Yaml} {l : List Yaml} {j : Nat} :
    (s, m) ∈ listAt [] j l ↔ ∃ k c t, s = (j + k) :: t ∧ l[k]? = some c ∧ (t, m) ∈ tasksAt [] c := by
  induction l generalizing j with
  | nil =>
    rw [listAt]
    simp
  | cons n rest ih =>
    rw [listAt, List.mem_append, ih, mem_tasksAt, List.nil_append]
    constructor
    · rintro (⟨t, rfl, h⟩ | ⟨k, c, t, rfl, h1, h2⟩)
      · exact ⟨0, n, t, rfl, rfl, h⟩
      · exact ⟨k + 1, c, t, by rw [Nat.add_right_comm, Nat.add_assoc], h1, h2⟩
    · rintro ⟨k, c, t, rfl, h1, h2⟩
      cases k with
      | zero =>
        cases h1
        exact Or.inl ⟨t, rfl, h2⟩
      | succ k => exact Or.inr ⟨k, c, t, by rw [Nat.add_right_comm, Nat.add_assoc], h1, h2⟩

theorem mem_tasksAt_nil {s : List Nat} {n m : Yaml} :
    (s, m) ∈ tasksAt [] n ↔ (s = [] ∧ m = n) ∨ (s, m) ∈ listAt [] 0 (subs n) := by
  rw [tasksAt_eq, List.mem_cons, Prod.mk.injEq]

/-- A new numbering of the subtasks of every task -/
structure Renumbers (φ : List Nat → List Nat) : Prop where
  inj : Function.Injective φ
  nil : φ [] = []
  snoc : ∀ a k, ∃ j, φ (a ++ [k]) = φ a ++ [j]

theorem Renumbers.subtask {φ : List Nat → List Nat} (h : Renumbers φ) {a b : List Nat} : SubtaskPath (φ a) (φ b) ↔ SubtaskPath a b := by
  constructor
  · rintro ⟨j, hj⟩
    rcases List.eq_nil_or_concat b with rfl | ⟨c, k, rfl⟩
    · rw [h.nil] at hj
      simp at hj
    · rw [List.concat_eq_append] at hj ⊢
      obtain ⟨i, hi⟩ := h.snoc c k
      rw [hi] at hj
      have := h.inj (List.append_inj_left' hj rfl)
      exact ⟨k, by rw [this]⟩
  · rintro ⟨k, rfl⟩
    exact h.snoc a k

/-- The tasks of two lists with paths correspond. -/
def Corresponds (φ : List Nat → List Nat) (T T' : List (List Nat × Yaml)) : Prop :=
  (∀ s m, (s, m) ∈ T → ∃ m', (φ s, m') ∈ T' ∧ Reordered m m') ∧
    ∀ s' m', (s', m') ∈ T' → ∃ s m, φ s = s' ∧ (s, m) ∈ T ∧ Reordered m m'

theorem corresponds_list {l l' : List Yaml} (ha : Along Reordered l l')
    (ih : ∀ x ∈ l, ∀ x', Reordered x x' → ∃ φ, Renumbers φ ∧ Corresponds φ (tasksAt [] x) (tasksAt [] x')) :
    ∃ φ, Renumbers φ ∧ Corresponds φ (listAt [] 0 l) (listAt [] 0 l') := by
  obtain ⟨π, hπ, h⟩ := ha
  have key : ∀ k : Nat, ∃ ψ, Renumbers ψ ∧ ∀ c, l[k]? = some c → ∃ c', l'[π k]? = some c' ∧ Corresponds ψ (tasksAt [] c) (tasksAt [] c') := by
    intro k
    have := h k
    generalize hc : l[k]? = a at this
    generalize hc' : l'[π k]? = b at this
    cases this with
    | none => exact ⟨id, ⟨Function.injective_id, rfl, fun a k => ⟨k, rfl⟩⟩, fun _ h => by cases h⟩
    | @some c c' hr =>
      obtain ⟨ψ, h1, h2⟩ := ih c (List.mem_of_getElem? hc) c' hr
      exact ⟨ψ, h1, fun d hd => by cases hd; exact ⟨c', rfl, h2⟩⟩
  choose ψ hψ hc using key
  refine ⟨fun s => match s with
    | [] => []
    | k :: t => π k :: ψ k t, ⟨?_, rfl, ?_⟩, ?_, ?_⟩
  · rintro (_ | ⟨a, s⟩) (_ | ⟨b, t⟩) e
    · rfl
    · cases e
    · cases e
    · dsimp only at e
      injection e with e1 e2
      have := hπ.1 e1
      subst this
      rw [(hψ a).inj e2]
  · rintro (_ | ⟨a, s⟩) k
    · refine ⟨π k, ?_⟩
      simp [(hψ k).nil]
    · obtain ⟨j, hj⟩ := (hψ a).snoc s k
      exact ⟨j, by simp [hj]⟩
  · intro s m hm
    obtain ⟨k, c, t, rfl, h1, h2⟩ := mem_listAt.1 hm
    rw [Nat.zero_add]
    obtain ⟨c', h3, h4, _⟩ := hc k c h1
    obtain ⟨m', h5, h6⟩ := h4 t m h2
    exact ⟨m', mem_listAt.2 ⟨π k, c', _, by rw [Nat.zero_add], h3, h5⟩, h6⟩
  · intro s' m' hm
    obtain ⟨k', c', t', rfl, h1, h2⟩ := mem_listAt.1 hm
    rw [Nat.zero_add]
    obtain ⟨k, rfl⟩ := hπ.2 k'
    have := h k
    rw [h1] at this
    generalize hk : l[k]? = o at this
    cases this with
    | @some c _ hr =>
      obtain ⟨c'', h3, _, h4⟩ := hc k c hk
      rw [h1] at h3
      cases h3
      obtain ⟨s, m, rfl, h5, h6⟩ := h4 t' m' h2
      exact ⟨k :: s, m, rfl, mem_listAt.2 ⟨k, c, s, by rw [Nat.zero_add], hk, h5⟩, h6⟩

theorem subs_field {n : Yaml} (h : IsTask n) {l : List Yaml} (hf : Field n "subtasks" (.seq l)) : subs n = l := by
  cases h with
  | mk keys =>
    rw [subs, (get_iff keys _ _).2 hf]

theorem subs_none {n : Yaml} (h : IsTask n) (hf : ¬ ∃ v, Field n "subtasks" v) : subs n = [] := by
  cases h with
  | mk keys =>
    have : n.get "subtasks" = none := by
      cases hg : n.get "subtasks" with
      | none => rfl
      | some v => exact absurd ⟨v, (get_iff keys _ _).1 hg⟩ hf
    rw [subs, this]

theorem corresponds_task (h : Reordered m n) (hm : IsTask m) : ∃ φ, Renumbers φ ∧ Corresponds φ (tasksAt [] m) (tasksAt [] n) := by
  have hm' := hm
  induction hm generalizing n with
  | @mk m keys group groups agent name id dependsOn duration subtasks subtask ih =>
    have hn := h.isTask hm'
    have hsub : Along Reordered (subs m) (subs n) := by
      by_cases hf : ∃ v, Field m "subtasks" v
      · obtain ⟨v, hv⟩ := hf
        obtain ⟨l, rfl⟩ := subtasks v hv
        obtain ⟨l', hl', ha⟩ := h.seqField hv
        rw [subs_field hm' hv, subs_field hn hl']
        exact ha
      · rw [subs_none hm' hf, subs_none hn fun hc => hf (h.symm.anyField hc)]
        exact .refl .refl _
    have hin : ∀ x ∈ subs m, ∃ l, Field m "subtasks" (.seq l) ∧ x ∈ l := by
      intro x hx
      by_cases hf : ∃ v, Field m "subtasks" v
      · obtain ⟨v, hv⟩ := hf
        obtain ⟨l, rfl⟩ := subtasks v hv
        rw [subs_field hm' hv] at hx
        exact ⟨l, hv, hx⟩
      · rw [subs_none hm' hf] at hx
        cases hx
    obtain ⟨φ, h1, h2, h3⟩ := corresponds_list hsub fun x hx x' hr => by
      obtain ⟨l, hl, hx⟩ := hin x hx
      exact ih l x hl hx hr (subtask l x hl hx)
    refine ⟨φ, h1, fun s r hr => ?_, fun s' r' hr' => ?_⟩
    · rcases mem_tasksAt_nil.1 hr with ⟨rfl, rfl⟩ | hr
      · exact ⟨n, mem_tasksAt_nil.2 (Or.inl ⟨h1.nil, rfl⟩), h⟩
      · obtain ⟨r', h4, h5⟩ := h2 s r hr
        exact ⟨r', mem_tasksAt_nil.2 (Or.inr h4), h5⟩
    · rcases mem_tasksAt_nil.1 hr' with ⟨rfl, rfl⟩ | hr
      · exact ⟨[], m, h1.nil, mem_tasksAt_nil.2 (Or.inl ⟨rfl, rfl⟩), h⟩
      · obtain ⟨s, r, h4, h5, h6⟩ := h3 s' r' hr
        exact ⟨s, r, h4, mem_tasksAt_nil.2 (Or.inr h5), h6⟩

/-! ### Documents -/

variable {root root' : Yaml}

theorem tasks_field (h : IsConfiguration root) : ∃ l, Field root "tasks" (.seq l) ∧ tasks root = listAt [] 0 l := by
  obtain ⟨v, hv⟩ := get_required h.1 (key := "tasks") (by simp)
  obtain ⟨l, rfl, _⟩ := h.2.2 v ((get_iff h.1 _ _).1 hv)
  refine ⟨l, (get_iff h.1 _ _).1 hv, ?_⟩
  rw [tasks, hv]

theorem agents_field (h : IsConfiguration root) : Field root "agents" (.map (agents root)) := by
  obtain ⟨v, hv⟩ := get_required h.1 (key := "agents") (by simp)
  obtain ⟨l, rfl, _⟩ := h.2.1 v ((get_iff h.1 _ _).1 hv)
  have : agents root = l := by rw [agents, hv]
  rw [this]
  exact (get_iff h.1 _ _).1 hv

theorem agents_along (h : Reordered root root') (hc : IsConfiguration root) : Along SameEntry (agents root) (agents root') := by
  have hc' := h.isConfiguration hc
  obtain ⟨w, hw, hr⟩ := h.field (agents_field hc)
  obtain ⟨l', rfl, ha, _⟩ := hr.of_map
  have := (get_iff hc'.1 _ _).2 hw
  have e : agents root' = l' := by rw [agents, this]
  rwa [e]

theorem tasks_correspond (h : Reordered root root') (hc : IsConfiguration root) :
    ∃ φ, Renumbers φ ∧ Corresponds φ (tasks root) (tasks root') := by
  have hc' := h.isConfiguration hc
  obtain ⟨l, hl, e⟩ := tasks_field hc
  obtain ⟨w, hw, hr⟩ := h.field hl
  obtain ⟨l', rfl, ha⟩ := hr.of_seq
  have e' : tasks root' = listAt [] 0 l' := by rw [tasks, (get_iff hc'.1 _ _).2 hw]
  rw [e, e']
  obtain ⟨_, hv, hv'⟩ := hc.2.2 _ hl
  cases hv
  exact corresponds_list ha fun x hx x' hr => corresponds_task hr (hv' x hx)

/-- Tasks with subtasks: numbers in one document and in the other -/
structure TasksMatch (root root' : Yaml) (g : Nat → Nat) : Prop where
  length : (tasks root).length = (tasks root').length
  inj : ∀ i < (tasks root).length, ∀ j < (tasks root).length, g i = g j → i = j
  task : ∀ (i : Nat) q, (tasks root)[i]? = some q → ∃ q', (tasks root')[g i]? = some q' ∧ Reordered q.2 q'.2
  onto : ∀ j < (tasks root').length, ∃ i < (tasks root).length, g i = j
  deps : ∀ i < (tasks root).length, ∀ d < (tasks root).length, DependsOn root' (g i) (g d) ↔ DependsOn root i d

theorem tasks_match (h : Reordered root root') (hc : IsConfiguration root) : ∃ g, TasksMatch root root' g := by
  obtain ⟨φ, hφ, h1, h2⟩ := tasks_correspond h hc
  have key : ∀ i : Nat, ∃ j : Nat, ∀ q, (tasks root)[i]? = some q →
      ∃ q', (tasks root')[j]? = some q' ∧ q'.1 = φ q.1 ∧ Reordered q.2 q'.2 := by
    intro i
    cases hq : (tasks root)[i]? with
    | none => exact ⟨0, fun _ h => by cases h⟩
    | some q =>
      obtain ⟨m', h3, h4⟩ := h1 q.1 q.2 (List.mem_of_getElem? hq)
      obtain ⟨j, hj⟩ := List.mem_iff_getElem?.1 h3
      exact ⟨j, fun r hr => by cases hr; exact ⟨_, hj, rfl, h4⟩⟩
  choose g hg using key
  have hlt : ∀ i < (tasks root).length, g i < (tasks root').length := fun i hi => by
    obtain ⟨_, h, _⟩ := hg i _ (List.getElem?_eq_getElem hi)
    exact (List.getElem?_eq_some_iff.1 h).1
  have hinj : ∀ i < (tasks root).length, ∀ j < (tasks root).length, g i = g j → i = j := by
    intro i hi j hj e
    obtain ⟨q, h3, h4, _⟩ := hg i _ (List.getElem?_eq_getElem hi)
    obtain ⟨r, h5, h6, _⟩ := hg j _ (List.getElem?_eq_getElem hj)
    rw [e, h5] at h3
    cases h3
    exact tasks_path_inj (List.getElem?_eq_getElem hi) (List.getElem?_eq_getElem hj) (hφ.inj (h4.symm.trans h6))
  have honto : ∀ j < (tasks root').length, ∃ i < (tasks root).length, g i = j := by
    intro j hj
    have hq' := List.getElem?_eq_getElem hj
    obtain ⟨s, m, e, h3, _⟩ := h2 _ _ (List.mem_of_getElem? hq')
    obtain ⟨i, hi⟩ := List.mem_iff_getElem?.1 h3
    obtain ⟨r, h5, h6, _⟩ := hg i _ hi
    exact ⟨i, (List.getElem?_eq_some_iff.1 hi).1, tasks_path_inj h5 hq' (h6.trans e)⟩
  refine ⟨g, ?_, hinj, fun i q hq => ?_, honto, ?_⟩
  · refine le_antisymm ?_ ?_
    · have := Finset.card_le_card_of_injOn (s := Finset.range (tasks root).length) (t := Finset.range (tasks root').length) g
        (fun i hi => by simpa using hlt i (by simpa using hi))
        (fun i hi j hj e => hinj i (by simpa using hi) j (by simpa using hj) e)
      simpa using this
    · have := Finset.card_le_card_of_surjOn (s := Finset.range (tasks root).length) (t := Finset.range (tasks root').length) g
        (fun j hj => by
          obtain ⟨i, hi, e⟩ := honto j (by simpa using hj)
          exact ⟨i, by simpa using hi, e⟩)
      simpa using this
  · obtain ⟨q', h3, _, h4⟩ := hg i q hq
    exact ⟨q', h3, h4⟩
  · intro i hi d hd
    have hqi := List.getElem?_eq_getElem hi
    have hqd := List.getElem?_eq_getElem hd
    obtain ⟨ri, h3, h4, h5⟩ := hg i _ hqi
    obtain ⟨rd, h6, h7, h8⟩ := hg d _ hqd
    unfold DependsOn
    constructor
    · rintro ⟨a, b, ha, hb, hab⟩
      rw [h3] at ha
      rw [h6] at hb
      cases ha
      cases hb
      refine ⟨_, _, hqi, hqd, hab.imp (fun hs => ?_) ?_⟩
      · rw [h4, h7] at hs
        exact hφ.subtask.1 hs
      · rintro ⟨s, h9, h10⟩
        exact ⟨s, h5.symm.dependsOnId h9, h8.symm.scalarField h10⟩
    · rintro ⟨a, b, ha, hb, hab⟩
      rw [hqi] at ha
      rw [hqd] at hb
      cases ha
      cases hb
      refine ⟨_, _, h3, h6, hab.imp (fun hs => ?_) ?_⟩
      · rw [h4, h7]
        exact hφ.subtask.2 hs
      · rintro ⟨s, h9, h10⟩
        exact ⟨s, h5.dependsOnId h9, h8.scalarField h10⟩

end Angonoka.Doc
