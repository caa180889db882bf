import Verif.Proof.Paths
import Verif.Proof.Schema
import Verif.Spec.Messages

/-!
# Messages of the schema check
-/

namespace Angonoka.Validation
open Angonoka Doc

variable {rf : String → Option XFloat} {root : Yaml}

theorem at_join {scope : String} {es : List (Yaml × Yaml)} {k v : Yaml} (h : At root scope (.map es))
    (hk : (k, v) ∈ es) : At root (join scope k.text) v := by
  unfold join
  split
  · rename_i hs
    have : scope = "" := by simpa using hs
    subst this
    exact .field h hk
  · rename_i hs
    have hs : scope ≠ "" := by simpa using hs
    exact .subfield hs h hk

theorem lookup_mem {es : List (Yaml × Yaml)} {key : String} {v : Yaml} (h : Yaml.lookup key es = some v) :
    (Yaml.scalar key, v) ∈ es := by
  induction es with
  | nil => cases h
  | cons e rest ih =>
    obtain ⟨k, w⟩ := e
    cases k with
    | scalar s =>
      simp only [Yaml.lookup] at h
      split at h
      · rename_i hs
        subst hs
        cases h
        exact List.mem_cons_self
      · exact List.mem_cons_of_mem _ (ih h)
    | null => exact List.mem_cons_of_mem _ (ih h)
    | seq l => exact List.mem_cons_of_mem _ (ih h)
    | map l => exact List.mem_cons_of_mem _ (ih h)

theorem field_of_get {n : Yaml} {key : String} {v : Yaml} (h : n.get key = some v) : Field n key v := by
  cases n with
  | map es => exact ⟨es, rfl, lookup_mem h⟩
  | _ => cases h

theorem lookup_none {es : List (Yaml × Yaml)} {key : String} (h : Yaml.lookup key es = none) :
    ∀ v, (Yaml.scalar key, v) ∉ es := by
  induction es with
  | nil => intro v hv; cases hv
  | cons e rest ih =>
    obtain ⟨k, w⟩ := e
    intro v hv
    cases k with
    | scalar s =>
      simp only [Yaml.lookup] at h
      split at h
      · cases h
      · rename_i hs
        rcases List.mem_cons.1 hv with e | hv
        · cases e; exact hs rfl
        · exact ih h v hv
    | null | seq l | map l =>
      rcases List.mem_cons.1 hv with e | hv
      · cases e
      · exact ih h v hv

theorem no_field {n : Yaml} {key : String} (h : n.get key = none) : ∀ v, ¬ Field n key v := by
  rintro v ⟨es, rfl, hv⟩
  exact lookup_none h v hv

theorem at_get {scope : String} {n : Yaml} {key : String} {v : Yaml} (h : At root scope n)
    (hv : n.get key = some v) : At root (join scope key) v := by
  obtain ⟨es, rfl, hm⟩ := field_of_get hv
  exact at_join h hm

/-- The check complains truthfully about the node `n`. -/
def Truthful (rf : String → Option XFloat) (root : Yaml) (c : Check) (n : Yaml) : Prop :=
  ∀ scope m, At root scope n → c n scope = .error m → TrueMessage rf root m

theorem truthful_scalar (n : Yaml) : Truthful rf root scalar n := by
  intro scope m h hm
  cases n with
  | null => cases hm; exact .empty h
  | scalar s => cases hm
  | seq l => cases hm; exact .invalidType h (by simp) (by simp [IsText])
  | map l => cases hm; exact .invalidType h (by simp) (by simp [IsText])

theorem truthful_anyOf {a b : Check} {n : Yaml} (h : Truthful rf root b n) : Truthful rf root (anyOf a b) n := by
  intro scope m ha hm
  unfold anyOf at hm
  split at hm
  · cases hm
  · exact h scope m ha hm

theorem sequenceLoop_truthful {c : Check} {scope m : String} {l : List Yaml} (ha : At root scope (.seq l))
    (hc : ∀ x ∈ l, Truthful rf root c x) (k : Nat) (rest : List Yaml) (hr : l.drop k = rest)
    (hm : sequenceLoop c scope k rest = .error m) : TrueMessage rf root m := by
  induction rest generalizing k with
  | nil => cases hm
  | cons x rest ih =>
    have hx : l[k]? = some x := by rw [← List.head?_drop, hr]; rfl
    simp only [sequenceLoop] at hm
    split at hm
    · rename_i e he
      cases hm
      exact hc x (List.mem_of_getElem? hx) _ _ (.item ha hx) he
    · refine ih (k + 1) ?_ hm
      rw [← List.tail_drop, hr, List.tail_cons]

theorem truthful_sequence {c : Check} {n : Yaml} (hc : ∀ l, n = .seq l → ∀ x ∈ l, Truthful rf root c x) :
    Truthful rf root (sequence c) n := by
  intro scope m ha hm
  cases n with
  | seq l => exact sequenceLoop_truthful ha (hc l rfl) 0 l rfl hm
  | _ => cases hm; exact .notSequence ha (by simp)

theorem valuesLoop_truthful {c : Check} {scope m : String} {es : List (Yaml × Yaml)} (ha : At root scope (.map es))
    (hc : ∀ e ∈ es, ∀ m, At root (join scope e.1.text) e.2 → c e.2 (join scope e.1.text) = .error m →
      TrueMessage rf root m)
    (rest : List (Yaml × Yaml)) (hr : ∀ e ∈ rest, e ∈ es)
    (hm : valuesLoop c scope rest = .error m) : TrueMessage rf root m := by
  induction rest with
  | nil => cases hm
  | cons x rest ih =>
    obtain ⟨k, v⟩ := x
    have hx := hr (k, v) (by simp)
    simp only [valuesLoop] at hm
    split at hm
    · rename_i e he
      cases hm
      exact hc _ hx _ (at_join ha hx) he
    · exact ih (fun e he => hr e (by simp [he])) hm

theorem checkKeys_truthful {names : List String} {scope m : String} {es : List (Yaml × Yaml)}
    (ha : At root scope (.map es))
    (hu : ∀ key v, (Yaml.scalar key, v) ∈ es → key ∉ names →
      TrueMessage rf root ("Unexpected attribute \"" ++ key ++ "\" in \"" ++ scope ++ "\"."))
    (k : Nat) (rest : List (Yaml × Yaml)) (hr : es.drop k = rest) (seen : List String)
    (hseen : ∀ x ∈ seen, ∃ (i : Nat) (v : Yaml), i < k ∧ es[i]? = some (Yaml.scalar x, v))
    (hm : checkKeys names scope seen rest = .error m) : TrueMessage rf root m := by
  induction rest generalizing k seen with
  | nil => cases hm
  | cons x rest ih =>
    obtain ⟨key, v⟩ := x
    have hx : es[k]? = some (key, v) := by rw [← List.head?_drop, hr]; rfl
    simp only [checkKeys] at hm
    split at hm
    · rename_i he
      cases hm
      refine .emptyAttribute ha (List.mem_of_getElem? hx) ?_
      rintro s rfl
      simpa [Yaml.text] using he
    · rename_i he
      have hk : key = .scalar key.text := by
        cases key with
        | scalar s => rfl
        | _ => exact absurd rfl he
      split at hm
      · rename_i hc
        cases hm
        obtain ⟨i, w, hi, hw⟩ := hseen _ (by simpa using hc)
        have hx' : es[k]? = some (.scalar key.text, v) := by rw [hx, ← hk]
        exact .duplicateAttribute ha hi hw hx'
      · split at hm
        · rename_i hn
          cases hm
          exact hu key.text v (by rw [← hk]; exact List.mem_of_getElem? hx) (by simpa using hn)
        · refine ih (k + 1) ?_ _ ?_ hm
          · rw [← List.tail_drop, hr, List.tail_cons]
          · intro y hy
            rcases List.mem_cons.1 hy with rfl | hy
            · exact ⟨k, v, by omega, by rw [hx, ← hk]⟩
            · obtain ⟨i, w, hi, hw⟩ := hseen y hy
              exact ⟨i, w, by omega, hw⟩

theorem runAttrs_truthful {n : Yaml} {scope m : String} (attrs : List Attr)
    (h : ∀ a ∈ attrs, ∀ m, a.run n scope = .error m → TrueMessage rf root m)
    (hm : runAttrs n scope attrs = .error m) : TrueMessage rf root m := by
  induction attrs with
  | nil => cases hm
  | cons a rest ih =>
    simp only [runAttrs] at hm
    split at hm
    · rename_i e he
      cases hm
      exact h a (by simp) _ he
    · exact ih (fun b hb => h b (by simp [hb])) hm

theorem attributes_truthful {n : Yaml} {scope m : String} {attrs : List Attr} (ha : At root scope n)
    (hu : ∀ key v, Field n key v → key ∉ attrs.map Attr.name →
      TrueMessage rf root ("Unexpected attribute \"" ++ key ++ "\" in \"" ++ scope ++ "\"."))
    (h : ∀ a ∈ attrs, ∀ m, a.run n scope = .error m → TrueMessage rf root m)
    (hm : attributes attrs n scope = .error m) : TrueMessage rf root m := by
  unfold attributes at hm
  split at hm
  · rename_i hn
    cases hm
    refine .notMap ha ?_
    rintro es rfl
    cases hn
  · split at hm
    · rename_i e he
      cases hm
      cases n with
      | map es =>
        exact checkKeys_truthful ha (fun key v hv => hu key v ⟨es, rfl, hv⟩) 0 es rfl [] (by simp) he
      | _ => cases he
    · exact runAttrs_truthful attrs h hm

theorem optional_truthful {n : Yaml} {scope m : String} {name : String} {c : Check} (ha : At root scope n)
    (hc : ∀ v, n.get name = some v → Truthful rf root c v) (hm : (optional name c).run n scope = .error m) :
    TrueMessage rf root m := by
  simp only [optional] at hm
  split at hm
  · rename_i v hv
    exact hc v hv _ _ (at_get ha hv) hm
  · cases hm

theorem required_truthful {n : Yaml} {scope m : String} {name : String} {c : Check} (ha : At root scope n)
    (hk : (scope, name) = ("", "agents") ∨ (scope, name) = ("", "tasks") ∨
        IsTaskOf root n ∧ (name = "name" ∨ name = "duration"))
    (hc : ∀ v, n.get name = some v → c v (join scope name) = .error m → TrueMessage rf root m)
    (hm : (required name c).run n scope = .error m) :
    TrueMessage rf root m := by
  simp only [required] at hm
  split at hm
  · rename_i v hv
    exact hc v hv hm
  · rename_i hv
    cases hm
    exact .missing ha (no_field hv) hk

/-! ### Tasks -/

theorem listAt_mem {l : List Yaml} {x : Yaml} (h : x ∈ l) (path : List Nat) (k : Nat) :
    ∃ p, (p, x) ∈ listAt path k l := by
  induction l generalizing k with
  | nil => cases h
  | cons y l ih =>
    rw [listAt]
    rcases List.mem_cons.1 h with rfl | h
    · exact ⟨path ++ [k], List.mem_append_left _ (by rw [tasksAt_eq]; exact List.mem_cons_self)⟩
    · obtain ⟨p, hp⟩ := ih h (k + 1)
      exact ⟨p, List.mem_append_right _ hp⟩

theorem subtask_aux (N : Nat) :
    (∀ n : Yaml, sizeOf n < N → ∀ path, ∀ q ∈ tasksAt path n, ∀ x ∈ subs q.2, ∃ p, (p, x) ∈ tasksAt path n) ∧
    (∀ l : List Yaml, sizeOf l < N → ∀ path k, ∀ q ∈ listAt path k l, ∀ x ∈ subs q.2,
      ∃ p, (p, x) ∈ listAt path k l) := by
  induction N with
  | zero => exact ⟨fun _ h => absurd h (by omega), fun _ h => absurd h (by omega)⟩
  | succ N ih =>
    constructor
    · intro n hn path q hq x hx
      rw [tasksAt_eq] at hq ⊢
      rcases List.mem_cons.1 hq with rfl | hq
      · obtain ⟨p, hp⟩ := listAt_mem hx path 0
        exact ⟨p, List.mem_cons_of_mem _ hp⟩
      · rcases sizeOf_subs n with hs | hs
        · obtain ⟨p, hp⟩ := ih.2 (subs n) (by omega) path 0 q hq x hx
          exact ⟨p, List.mem_cons_of_mem _ hp⟩
        · rw [hs, listAt] at hq
          cases hq
    · intro l hl path k q hq x hx
      cases l with
      | nil => rw [listAt] at hq; cases hq
      | cons n rest =>
        simp only [List.cons.sizeOf_spec] at hl
        rw [listAt] at hq ⊢
        rcases List.mem_append.1 hq with hq | hq
        · obtain ⟨p, hp⟩ := ih.1 n (by omega) _ q hq x hx
          exact ⟨p, List.mem_append_left _ hp⟩
        · obtain ⟨p, hp⟩ := ih.2 rest (by omega) _ _ q hq x hx
          exact ⟨p, List.mem_append_right _ hp⟩

theorem subtask_mem {path : List Nat} {n : Yaml} (h : (path, n) ∈ tasks root) {l : List Yaml}
    (hl : n.get "subtasks" = some (.seq l)) {x : Yaml} (hx : x ∈ l) : ∃ p, (p, x) ∈ tasks root := by
  have hs : x ∈ subs n := by rw [subs, hl]; exact hx
  unfold tasks at h ⊢
  split at h
  · rename_i l' _
    exact (subtask_aux (sizeOf l' + 1)).2 l' (by omega) [] 0 _ h x hs
  · cases h

theorem truthful_range (n : Yaml) :
    Truthful rf root (anyOf (attributes [required "min", required "max"]) scalar) n :=
  truthful_anyOf (truthful_scalar n)

theorem truthful_texts (n : Yaml) : Truthful rf root (sequence scalar) n :=
  truthful_sequence fun _ _ x _ => truthful_scalar x

theorem truthful_task {c : Check} {path : List Nat} {n : Yaml} (hn : (path, n) ∈ tasks root)
    (hc : ∀ v, n.get "subtasks" = some v → Truthful rf root c v) : Truthful rf root (taskAttributes c) n := by
  intro scope m ha hm
  refine attributes_truthful ha ?_ ?_ hm
  · intro key v hv hk
    exact .unexpectedInTask ⟨path, hn⟩ ha hv hk
  · intro a hmem m hm
    simp only [List.mem_cons, List.not_mem_nil, or_false] at hmem
    rcases hmem with rfl | rfl | rfl | rfl | rfl | rfl | rfl | rfl
    · exact optional_truthful ha (fun v _ => truthful_scalar v) hm
    · exact optional_truthful ha (fun v _ => truthful_texts v) hm
    · exact optional_truthful ha (fun v _ => truthful_scalar v) hm
    · exact required_truthful ha (.inr (.inr ⟨⟨path, hn⟩, .inl rfl⟩))
        (fun v hv => truthful_scalar v _ _ (at_get ha hv)) hm
    · exact optional_truthful ha (fun v _ => truthful_scalar v) hm
    · exact optional_truthful ha (fun v _ => truthful_anyOf (truthful_texts v)) hm
    · exact required_truthful ha (.inr (.inr ⟨⟨path, hn⟩, .inr rfl⟩))
        (fun v hv => truthful_range v _ _ (at_get ha hv)) hm
    · exact optional_truthful ha hc hm

theorem truthful_taskList (f : Nat) (n : Yaml) (hf : n.depth < f)
    (hn : ∀ l, n = .seq l → ∀ x ∈ l, ∃ path, (path, x) ∈ tasks root) :
    Truthful rf root (validateTaskList f) n := by
  induction f generalizing n with
  | zero => omega
  | succ f ih =>
    refine truthful_sequence ?_
    rintro l rfl x hx
    obtain ⟨path, hp⟩ := hn l rfl x hx
    refine truthful_task hp fun v hv => ih v ?_ ?_
    · have h1 := depth_field (field_of_get hv)
      have h2 := depth_item hx
      simp only [Yaml.depth] at hf
      omega
    · rintro l' rfl y hy
      exact subtask_mem hp hv hy

/-- Every message of the schema check is true. -/
theorem validateConfiguration_truthful {m : String} (hm : validateConfiguration root = .error m) :
    TrueMessage rf root m := by
  unfold validateConfiguration at hm
  refine attributes_truthful .whole ?_ ?_ hm
  · intro key v hv hk
    have := TrueMessage.unexpectedInDocument (rf := rf) hv hk
    rw [show "\" in \"\"." = "\" in \"" ++ "" ++ "\"." by decide] at this
    simpa only [String.append_assoc] using this
  intro a hmem m hm
  simp only [List.mem_cons, List.not_mem_nil, or_false] at hmem
  rcases hmem with rfl | rfl
  · refine required_truthful .whole (.inl rfl) ?_ hm
    intro v hv hm
    have ha : At root "agents" v := at_get .whole hv
    change values agentAttributes v "agents" = .error m at hm
    cases v with
    | map es =>
      refine valuesLoop_truthful ha ?_ es (fun _ h => h) hm
      intro e he m ha hm
      refine attributes_truthful ha ?_ ?_ hm
      · intro key v hv' hk
        have hag : (e.1, e.2) ∈ agents root := by rw [agents, hv]; exact he
        have := TrueMessage.unexpectedInAgent (rf := rf) hag hv' hk
        rw [show "\" in \"agents." = "\" in \"" ++ "agents" ++ "." by decide] at this
        rw [show join "agents" e.1.text = "agents" ++ "." ++ e.1.text from rfl]
        simpa only [String.append_assoc] using this
      · intro a hmem m hm
        simp only [List.mem_cons, List.not_mem_nil, or_false] at hmem
        rcases hmem with rfl | rfl
        · exact optional_truthful ha (fun v _ => truthful_range v) hm
        · exact optional_truthful ha (fun v _ => truthful_texts v) hm
    | _ => cases hm; exact .notMap ha (by simp)
  · refine required_truthful .whole (.inr (.inl rfl)) ?_ hm
    intro v hv hm
    refine truthful_taskList _ v (depth_field (field_of_get hv)) ?_ _ _ (at_get .whole hv) hm
    rintro l rfl x hx
    obtain ⟨p, hp⟩ := listAt_mem hx [] 0
    exact ⟨p, by rw [tasks, hv]; exact hp⟩

end Angonoka.Validation
