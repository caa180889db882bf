import Mathlib.Order.Lattice
import Mathlib.Order.Nat
import Verif.Model.Validation
import Verif.Spec.Document

/-!
# The schema check decides the documented shape
-/

namespace Angonoka.Validation
open Angonoka Doc

/-- On nodes satisfying `D` the check accepts exactly those satisfying `P`. -/
def Accepts (D : Yaml → Prop) (c : Check) (P : Yaml → Prop) : Prop :=
  ∀ n, D n → ∀ scope, c n scope = .ok () ↔ P n

/-- No restriction. -/
abbrev Any : Yaml → Prop := fun _ => True

theorem accepts_scalar {D : Yaml → Prop} : Accepts D scalar IsText := by
  intro n _ scope
  cases n <;> simp [scalar, IsText]

theorem sequenceLoop_ok (check : Check) (scope : String) (i : Nat) (l : List Yaml)
    (P : Yaml → Prop) (h : ∀ x ∈ l, ∀ s, check x s = .ok () ↔ P x) :
    sequenceLoop check scope i l = .ok () ↔ ∀ x ∈ l, P x := by
  induction l generalizing i with
  | nil => simp [sequenceLoop]
  | cons x rest ih =>
    have hx := h x (by simp) s!"{scope}[{i}]"
    have ih := ih (i + 1) (fun y hy => h y (by simp [hy]))
    simp only [sequenceLoop]
    cases hc : check x s!"{scope}[{i}]" with
    | error e =>
      simp only [reduceCtorEq, List.mem_cons, forall_eq_or_imp, false_iff, not_and]
      intro hp
      rw [← hx, hc] at hp
      cases hp
    | ok u =>
      simp only [List.mem_cons, forall_eq_or_imp]
      rw [ih]
      exact ⟨fun h' => ⟨hx.1 hc, h'⟩, fun h' => h'.2⟩

theorem accepts_sequence {D : Yaml → Prop} {c : Check} {P : Yaml → Prop}
    (h : Accepts D c P) :
    Accepts (fun n => ∀ l, n = .seq l → ∀ x ∈ l, D x) (sequence c)
      (fun n => ∃ l, n = .seq l ∧ ∀ x ∈ l, P x) := by
  intro n hn scope
  cases n with
  | seq l =>
    simp only [sequence]
    rw [sequenceLoop_ok c scope 0 l P (fun x hx => h x (hn l rfl x hx))]
    constructor
    · intro h'
      exact ⟨l, rfl, h'⟩
    · rintro ⟨l', e, h'⟩
      cases e
      exact h'
  | _ => simp [sequence]

theorem accepts_anyOf {D : Yaml → Prop} {a b : Check} {P Q : Yaml → Prop} (ha : Accepts D a P)
    (hb : Accepts D b Q) : Accepts D (anyOf a b) (fun n => P n ∨ Q n) := by
  intro n hn scope
  have h1 := ha n hn scope
  have h2 := hb n hn scope
  unfold anyOf
  cases hc : a n scope with
  | ok u => simp [h1.1 hc]
  | error e =>
    have : ¬ P n := by
      intro hp
      rw [h1.2 hp] at hc
      cases hc
    simp [h2, this]

theorem checkKeys_ok (names : List String) (scope : String) (seen : List String)
    (es : List (Yaml × Yaml)) (hne : ∀ x ∈ names, x ≠ "") :
    checkKeys names scope seen es = .ok () ↔
      ∃ ks : List String, es.map Prod.fst = ks.map Yaml.scalar ∧ ks.Nodup ∧
        (∀ x ∈ ks, x ∈ names) ∧ ∀ x ∈ ks, x ∉ seen := by
  induction es generalizing seen with
  | nil =>
    simp only [checkKeys, true_iff]
    exact ⟨[], rfl, List.nodup_nil, by simp, by simp⟩
  | cons e rest ih =>
    obtain ⟨k, v⟩ := e
    simp only [checkKeys]
    constructor
    · intro h
      split_ifs at h with h1 h2 h3
      rw [ih] at h
      obtain ⟨ks, e1, e2, e3, e4⟩ := h
      have hk : k = .scalar k.text := by
        cases k with
        | scalar s => rfl
        | _ => exact absurd rfl h1
      refine ⟨k.text :: ks, ?_, ?_, ?_, ?_⟩
      · simp only [List.map_cons, e1, ← hk]
      · rw [List.nodup_cons]
        exact ⟨fun hm => e4 _ hm (by simp), e2⟩
      · simp only [List.mem_cons, forall_eq_or_imp]
        exact ⟨by simpa using h3, e3⟩
      · simp only [List.mem_cons, forall_eq_or_imp]
        exact ⟨by simpa using h2, fun x hx => fun hm => e4 x hx (by simp [hm])⟩
    · rintro ⟨ks, e1, e2, e3, e4⟩
      cases ks with
      | nil => simp at e1
      | cons x ks =>
        simp only [List.map_cons, List.cons.injEq] at e1
        obtain ⟨rfl, e1⟩ := e1
        rw [List.nodup_cons] at e2
        simp only [List.mem_cons, forall_eq_or_imp] at e3 e4
        have h1 : (Yaml.scalar x).text = x := rfl
        rw [h1, if_neg (by simpa using hne x e3.1), if_neg (by simpa using e4.1),
          if_neg (by simpa using e3.1), ih]
        refine ⟨ks, e1, e2.2, e3.2, fun y hy hm => ?_⟩
        rcases List.mem_cons.1 hm with rfl | hm
        · exact e2.1 hy
        · exact e4.2 y hy hm

theorem lookup_iff {es : List (Yaml × Yaml)} {names : List String}
    (he : es.map Prod.fst = names.map Yaml.scalar) (hn : names.Nodup) (key : String) (v : Yaml) :
    Yaml.lookup key es = some v ↔ (Yaml.scalar key, v) ∈ es := by
  induction es generalizing names with
  | nil => simp [Yaml.lookup]
  | cons e rest ih =>
    obtain ⟨k, w⟩ := e
    cases names with
    | nil => simp at he
    | cons x names =>
      simp only [List.map_cons, List.cons.injEq] at he
      obtain ⟨rfl, he⟩ := he
      rw [List.nodup_cons] at hn
      simp only [Yaml.lookup]
      by_cases hx : x = key
      · subst hx
        simp only [if_true, Option.some.injEq, List.mem_cons, Prod.mk.injEq, true_and]
        constructor
        · rintro rfl; exact Or.inl rfl
        · rintro (rfl | hm)
          · rfl
          · exfalso
            apply hn.1
            have : Yaml.scalar x ∈ rest.map Prod.fst := List.mem_map.2 ⟨_, hm, rfl⟩
            rw [he, List.mem_map] at this
            obtain ⟨y, hy, e⟩ := this
            cases e
            exact hy
      · rw [if_neg hx, ih he hn.2]
        simp only [List.mem_cons, Prod.mk.injEq, Yaml.scalar.injEq]
        constructor
        · exact Or.inr
        · rintro (⟨h1, -⟩ | h)
          · exact absurd h1.symm hx
          · exact h

/-- With distinct textual keys, `get` finds exactly the fields. -/
theorem get_iff {allowed req : List String} {n : Yaml} (h : HasKeys allowed req n) (key : String)
    (v : Yaml) : n.get key = some v ↔ Field n key v := by
  rcases h with ⟨rfl, -⟩ | ⟨es, names, rfl, h1, h2, -, -⟩
  · simp [Yaml.get, Field]
  · simp only [Yaml.get]
    rw [lookup_iff h1 h2]
    constructor
    · intro h; exact ⟨es, rfl, h⟩
    · rintro ⟨es', e, h⟩
      cases e
      exact h

/-- A required key has a value. -/
theorem get_required {allowed req : List String} {n : Yaml} (h : HasKeys allowed req n)
    {key : String} (hk : key ∈ req) : ∃ v, n.get key = some v := by
  have hf : ∃ v, Field n key v := by
    rcases h with ⟨-, h⟩ | ⟨es, names, rfl, h1, h2, -, h4⟩
    · rw [h] at hk; cases hk
    · have := h4 key hk
      have : Yaml.scalar key ∈ es.map Prod.fst := by rw [h1]; exact List.mem_map.2 ⟨key, this, rfl⟩
      obtain ⟨⟨k, v⟩, h5, h6⟩ := List.mem_map.1 this
      cases h6
      exact ⟨v, es, rfl, h5⟩
  obtain ⟨v, hv⟩ := hf
  exact ⟨v, (get_iff h key v).2 hv⟩

theorem runAttrs_ok (n : Yaml) (scope : String) (attrs : List Attr) :
    runAttrs n scope attrs = .ok () ↔ ∀ a ∈ attrs, a.run n scope = .ok () := by
  induction attrs with
  | nil => simp [runAttrs]
  | cons a rest ih =>
    simp only [runAttrs]
    cases hc : a.run n scope with
    | error e => simp [hc]
    | ok u => simp [hc, ih]

/-- An attribute list in which the names in `req` are required and the values of attribute `a` are
checked by `P a`. -/
theorem attributes_ok (attrs : List Attr) (n : Yaml) (scope : String)
    (hne : ∀ x ∈ attrs.map Attr.name, x ≠ "") :
    attributes attrs n scope = .ok () ↔
      HasKeys (attrs.map Attr.name) [] n ∧ ∀ a ∈ attrs, a.run n scope = .ok () := by
  unfold attributes
  cases n with
  | scalar s => simp [HasKeys, Yaml.isScalar]
  | seq l => simp [HasKeys, Yaml.isScalar, Yaml.isSequence]
  | null =>
    simp [HasKeys, Yaml.isScalar, Yaml.isSequence, Yaml.entries, checkKeys, runAttrs_ok]
  | map es =>
    simp only [Yaml.isScalar, Yaml.isSequence, Bool.or_self, Bool.false_eq_true, if_false,
      Yaml.entries]
    have hk := checkKeys_ok (attrs.map Attr.name) scope [] es hne
    cases hc : checkKeys (attrs.map Attr.name) scope [] es with
    | error e =>
      simp only [reduceCtorEq, false_iff, not_and]
      intro h
      rcases h with ⟨h, -⟩ | ⟨es', names, e, h1, h2, h3, -⟩
      · cases h
      · cases e
        rw [hk.2 ⟨names, h1, h2, h3, by simp⟩] at hc
        cases hc
    | ok u =>
      obtain ⟨ks, h1, h2, h3, -⟩ := hk.1 hc
      simp only [runAttrs_ok]
      constructor
      · intro h
        exact ⟨Or.inr ⟨es, ks, rfl, h1, h2, h3, by simp⟩, h⟩
      · intro h; exact h.2

theorem optional_ok {allowed req : List String} {n : Yaml} (h : HasKeys allowed req n)
    {name : String} {c : Check} {P : Yaml → Prop} {scope : String}
    (hc : ∀ v, Field n name v → ∀ s, c v s = .ok () ↔ P v) :
    (optional name c).run n scope = .ok () ↔ ∀ v, Field n name v → P v := by
  simp only [optional]
  cases hg : n.get name with
  | none =>
    simp only [true_iff]
    intro v hv
    rw [(get_iff h name v).2 hv] at hg
    cases hg
  | some v =>
    have hf := (get_iff h name v).1 hg
    simp only [hc v hf]
    constructor
    · intro hp w hw
      rw [(get_iff h name w).2 hw] at hg
      cases hg
      exact hp
    · intro hp; exact hp v hf

theorem required_ok {allowed req : List String} {n : Yaml} (h : HasKeys allowed req n)
    {name : String} {c : Check} {P : Yaml → Prop} {scope : String}
    (hc : ∀ v, Field n name v → ∀ s, c v s = .ok () ↔ P v) :
    (required name c).run n scope = .ok () ↔
      (∃ v, Field n name v) ∧ ∀ v, Field n name v → P v := by
  simp only [required]
  cases hg : n.get name with
  | none =>
    simp only [reduceCtorEq, false_iff, not_and]
    rintro ⟨v, hv⟩
    rw [(get_iff h name v).2 hv] at hg
    cases hg
  | some v =>
    have hf := (get_iff h name v).1 hg
    simp only [hc v hf]
    constructor
    · intro hp
      refine ⟨⟨v, hf⟩, fun w hw => ?_⟩
      rw [(get_iff h name w).2 hw] at hg
      cases hg
      exact hp
    · intro hp; exact hp.2 v hf

/-- Keys and presence of the required ones. -/
theorem hasKeys_required {allowed req : List String} {n : Yaml} :
    HasKeys allowed req n ↔ HasKeys allowed [] n ∧ ∀ x ∈ req, ∃ v, Field n x v := by
  constructor
  · intro h
    refine ⟨?_, fun x hx => ?_⟩
    · rcases h with ⟨h, -⟩ | ⟨es, names, h0, h1, h2, h3, -⟩
      · exact Or.inl ⟨h, rfl⟩
      · exact Or.inr ⟨es, names, h0, h1, h2, h3, by simp⟩
    · obtain ⟨v, hv⟩ := get_required h hx
      exact ⟨v, (get_iff h x v).1 hv⟩
  · rintro ⟨h, hr⟩
    rcases h with ⟨rfl, -⟩ | ⟨es, names, rfl, h1, h2, h3, -⟩
    · refine Or.inl ⟨rfl, ?_⟩
      cases req with
      | nil => rfl
      | cons x req =>
        obtain ⟨v, es, e, -⟩ := hr x (by simp)
        cases e
    · refine Or.inr ⟨es, names, rfl, h1, h2, h3, fun x hx => ?_⟩
      obtain ⟨v, es', e, hv⟩ := hr x hx
      cases e
      have : Yaml.scalar x ∈ es.map Prod.fst := List.mem_map.2 ⟨_, hv, rfl⟩
      rw [h1, List.mem_map] at this
      obtain ⟨y, hy, e⟩ := this
      cases e
      exact hy

theorem accepts_texts {D : Yaml → Prop} : Accepts D (sequence scalar) IsTexts := by
  intro n _ scope
  exact accepts_sequence (D := Any) accepts_scalar n (fun _ _ _ _ => trivial) scope

theorem accepts_range {D : Yaml → Prop} :
    Accepts D (anyOf (attributes [required "min", required "max"]) scalar) IsRange := by
  have h : Accepts D (attributes [required "min", required "max"]) (fun n =>
      HasKeys ["min", "max"] ["min", "max"] n ∧
        (∀ v, Field n "min" v → IsText v) ∧ (∀ v, Field n "max" v → IsText v)) := by
    intro n _ scope
    dsimp only
    rw [attributes_ok _ _ _ (by simp [required])]
    rw [hasKeys_required (req := ["min", "max"])]
    constructor
    · rintro ⟨h1, h2⟩
      have a := (required_ok h1 (c := scalar) (P := IsText)
        (fun v _ s => accepts_scalar (D := Any) v trivial s)).1 (h2 (required "min") (by simp))
      have b := (required_ok h1 (c := scalar) (P := IsText)
        (fun v _ s => accepts_scalar (D := Any) v trivial s)).1 (h2 (required "max") (by simp))
      refine ⟨⟨h1, ?_⟩, a.2, b.2⟩
      simp only [List.mem_cons, List.not_mem_nil, or_false, forall_eq_or_imp, forall_eq]
      exact ⟨a.1, b.1⟩
    · rintro ⟨⟨h1, h2⟩, h3, h4⟩
      refine ⟨h1, ?_⟩
      simp only [List.mem_cons, List.not_mem_nil, or_false, forall_eq_or_imp, forall_eq] at h2 ⊢
      exact ⟨(required_ok h1 (P := IsText) (fun v _ s => accepts_scalar (D := Any) v trivial s)).2
          ⟨h2.1, h3⟩,
        (required_ok h1 (P := IsText) (fun v _ s => accepts_scalar (D := Any) v trivial s)).2
          ⟨h2.2, h4⟩⟩
  intro n hn scope
  rw [accepts_anyOf h accepts_scalar n hn scope]
  exact or_comm

/-- A task with the subtasks checked by `c`. -/
theorem taskAttributes_ok {c : Check} {n : Yaml} {Q : Yaml → Prop}
    (hc : ∀ v, Field n "subtasks" v → ∀ s, c v s = .ok () ↔ Q v) (scope : String) :
    taskAttributes c n scope = .ok () ↔
      HasKeys ["group", "groups", "agent", "name", "id", "depends_on", "duration", "subtasks"]
        ["name", "duration"] n ∧
      (∀ v, Field n "group" v → IsText v) ∧ (∀ v, Field n "groups" v → IsTexts v) ∧
      (∀ v, Field n "agent" v → IsText v) ∧ (∀ v, Field n "name" v → IsText v) ∧
      (∀ v, Field n "id" v → IsText v) ∧ (∀ v, Field n "depends_on" v → IsText v ∨ IsTexts v) ∧
      (∀ v, Field n "duration" v → IsRange v) ∧ (∀ v, Field n "subtasks" v → Q v) := by
  have hs : ∀ name, ∀ v, Field n name v → ∀ s, scalar v s = .ok () ↔ IsText v :=
    fun _ v _ s => accepts_scalar (D := Any) v trivial s
  have hts : ∀ name, ∀ v, Field n name v → ∀ s, sequence scalar v s = .ok () ↔ IsTexts v :=
    fun _ v _ s => accepts_texts (D := Any) v trivial s
  have hds : ∀ name, ∀ v, Field n name v → ∀ s, anyOf scalar (sequence scalar) v s = .ok () ↔
      (IsText v ∨ IsTexts v) :=
    fun _ v _ s => accepts_anyOf (D := Any) accepts_scalar accepts_texts v trivial s
  have hrs : ∀ name, ∀ v, Field n name v → ∀ s,
      anyOf (attributes [required "min", required "max"]) scalar v s = .ok () ↔ IsRange v :=
    fun _ v _ s => accepts_range (D := Any) v trivial s
  unfold taskAttributes
  rw [attributes_ok _ _ _ (by simp [required, optional])]
  rw [hasKeys_required (req := ["name", "duration"])]
  simp only [List.mem_cons, List.not_mem_nil, or_false, forall_eq_or_imp, forall_eq]
  constructor
  · rintro ⟨h, a1, a2, a3, a4, a5, a6, a7, a8⟩
    have b4 := (required_ok h (hs "name")).1 a4
    have b7 := (required_ok h (hrs "duration")).1 a7
    exact ⟨⟨h, b4.1, b7.1⟩, (optional_ok h (hs _)).1 a1, (optional_ok h (hts _)).1 a2,
      (optional_ok h (hs _)).1 a3, b4.2, (optional_ok h (hs _)).1 a5, (optional_ok h (hds _)).1 a6,
      b7.2, (optional_ok h hc).1 a8⟩
  · rintro ⟨⟨h, r1, r2⟩, a1, a2, a3, a4, a5, a6, a7, a8⟩
    exact ⟨h, (optional_ok h (hs _)).2 a1, (optional_ok h (hts _)).2 a2,
      (optional_ok h (hs _)).2 a3, (required_ok h (hs _)).2 ⟨r1, a4⟩, (optional_ok h (hs _)).2 a5,
      (optional_ok h (hds _)).2 a6, (required_ok h (hrs _)).2 ⟨r2, a7⟩, (optional_ok h hc).2 a8⟩

theorem depth_item {l : List Yaml} {x : Yaml} (h : x ∈ l) : x.depth ≤ Yaml.depthList l := by
  induction l with
  | nil => cases h
  | cons y l ih =>
    simp only [Yaml.depthList]
    rcases List.mem_cons.1 h with rfl | h
    · exact le_max_left _ _
    · exact (ih h).trans (le_max_right _ _)

theorem depth_entry {l : List (Yaml × Yaml)} {k v : Yaml} (h : (k, v) ∈ l) :
    v.depth ≤ Yaml.depthEntries l := by
  induction l with
  | nil => cases h
  | cons y l ih =>
    obtain ⟨k', v'⟩ := y
    simp only [Yaml.depthEntries]
    rcases List.mem_cons.1 h with e | h
    · cases e
      exact le_max_left _ _
    · exact (ih h).trans (le_max_right _ _)

theorem depth_field {n : Yaml} {key : String} {v : Yaml} (h : Field n key v) :
    v.depth < n.depth := by
  obtain ⟨es, rfl, h⟩ := h
  simp only [Yaml.depth]
  exact Nat.lt_succ_of_le (depth_entry h)

/-- A list of tasks. -/
def IsTaskList (n : Yaml) : Prop := ∃ l, n = .seq l ∧ ∀ x ∈ l, IsTask x

/-- The recursion bound is always enough, and the check decides the shape. -/
theorem validateTaskList_ok (f : Nat) (n : Yaml) (hf : n.depth ≤ f) (scope : String) :
    validateTaskList f n scope = .ok () ↔ IsTaskList n := by
  induction f generalizing n scope with
  | zero =>
    simp only [validateTaskList, reduceCtorEq, false_iff]
    rintro ⟨l, rfl, -⟩
    simp [Yaml.depth] at hf
  | succ f ih =>
    simp only [validateTaskList]
    rw [accepts_sequence (D := fun x => x.depth ≤ f) (P := IsTask) ?_ n ?_ scope]
    · rfl
    · intro x hx s
      rw [taskAttributes_ok (Q := IsTaskList)
        (fun v hv s => ih v ((depth_field hv).le.trans hx) s)]
      constructor
      · rintro ⟨h0, h1, h2, h3, h4, h5, h6, h7, h8⟩
        refine .mk h0 h1 h2 h3 h4 h5 h6 h7 (fun v hv => ?_) (fun l y hl hy => ?_)
        · obtain ⟨l, e, -⟩ := h8 v hv
          exact ⟨l, e⟩
        · obtain ⟨l', e, h⟩ := h8 _ hl
          cases e
          exact h y hy
      · rintro ⟨h0, h1, h2, h3, h4, h5, h6, h7, h8, h9⟩
        refine ⟨h0, h1, h2, h3, h4, h5, h6, h7, fun v hv => ?_⟩
        obtain ⟨l, rfl⟩ := h8 v hv
        exact ⟨l, rfl, fun x hx => h9 l x hv hx⟩
    · rintro l rfl x hx
      simp only [Yaml.depth] at hf
      have := depth_item hx
      omega

theorem accepts_agent {D : Yaml → Prop} : Accepts D agentAttributes IsAgent := by
  intro n _ scope
  unfold agentAttributes IsAgent
  rw [attributes_ok _ _ _ (by simp [optional])]
  simp only [List.mem_cons, List.not_mem_nil, or_false, forall_eq_or_imp, forall_eq]
  refine and_congr_right fun h => ?_
  exact and_congr
    (optional_ok h (fun v _ s => accepts_range (D := Any) v trivial s))
    (optional_ok h (fun v _ s => accepts_texts (D := Any) v trivial s))

theorem valuesLoop_ok (check : Check) (scope : String) (es : List (Yaml × Yaml))
    (P : Yaml → Prop) (h : ∀ e ∈ es, ∀ s, check e.2 s = .ok () ↔ P e.2) :
    valuesLoop check scope es = .ok () ↔ ∀ e ∈ es, P e.2 := by
  induction es with
  | nil => simp [valuesLoop]
  | cons x rest ih =>
    obtain ⟨k, v⟩ := x
    have hx := h (k, v) (by simp) (join scope k.text)
    have ih := ih (fun y hy => h y (by simp [hy]))
    simp only [valuesLoop]
    cases hc : check v (join scope k.text) with
    | error e =>
      simp only [reduceCtorEq, List.mem_cons, forall_eq_or_imp, false_iff, not_and]
      intro hp
      rw [← hx, hc] at hp
      cases hp
    | ok u =>
      simp only [List.mem_cons, forall_eq_or_imp]
      rw [ih]
      exact ⟨fun h' => ⟨hx.1 hc, h'⟩, fun h' => h'.2⟩

theorem accepts_values {c : Check} {P : Yaml → Prop} (h : Accepts Any c P) {D : Yaml → Prop} :
    Accepts D (values c) (fun n => ∃ es, n = .map es ∧ ∀ e ∈ es, P e.2) := by
  intro n _ scope
  cases n with
  | map es =>
    simp only [values]
    rw [valuesLoop_ok c scope es P (fun x _ => h x.2 trivial)]
    constructor
    · intro h'
      exact ⟨es, rfl, h'⟩
    · rintro ⟨l', e, h'⟩
      cases e
      exact h'
  | _ => simp [values]

theorem validateConfiguration_ok (root : Yaml) :
    validateConfiguration root = .ok () ↔ IsConfiguration root := by
  unfold validateConfiguration IsConfiguration
  rw [attributes_ok _ _ _ (by simp [required])]
  rw [hasKeys_required (req := ["agents", "tasks"])]
  have ha : ∀ v, Field root "agents" v → ∀ s, values agentAttributes v s = .ok () ↔
      ∃ es, v = .map es ∧ ∀ e ∈ es, IsAgent e.2 :=
    fun v _ s => accepts_values accepts_agent (D := Any) v trivial s
  have ht : ∀ v, Field root "tasks" v → ∀ s, validateTaskList root.depth v s = .ok () ↔
      ∃ l, v = .seq l ∧ ∀ x ∈ l, IsTask x :=
    fun v hv s => validateTaskList_ok root.depth v (depth_field hv).le s
  simp only [List.mem_cons, List.not_mem_nil, or_false, forall_eq_or_imp, forall_eq]
  constructor
  · rintro ⟨h, a1, a2⟩
    have b1 := (required_ok h ha).1 a1
    have b2 := (required_ok h ht).1 a2
    exact ⟨⟨h, b1.1, b2.1⟩, b1.2, b2.2⟩
  · rintro ⟨⟨h, r1, r2⟩, a1, a2⟩
    exact ⟨h, (required_ok h ha).2 ⟨r1, a1⟩, (required_ok h ht).2 ⟨r2, a2⟩⟩

end Angonoka.Validation
