import Verif.Model.Bytes
import Verif.Spec.Utf8

/-!
# The automaton for UTF-8
-/

namespace Angonoka
open Outcome Bytes

theorem utf8_nil : utf8 [] = [] := rfl
theorem utf8_cons (c : Char) (cs : List Char) : utf8 (c :: cs) = String.utf8EncodeChar c ++ utf8 cs := rfl
theorem utf8_append (l l' : List Char) : utf8 (l ++ l') = utf8 l ++ utf8 l' := List.flatMap_append

/-! ### The automaton -/

/-- The next state -/
def nextState (s : Nat) (b : UInt8) : Nat := transitions.getD (s * 16 + byteClass b) 1

theorem next_state (s : Nat) (b : UInt8) : nextState s b =
    if s = 0 then
      (if b.toNat < 0x80 then 0 else if 0xC2 ≤ b.toNat ∧ b.toNat < 0xE0 then 2 else if b.toNat = 0xE0 then 4
        else if b.toNat = 0xED then 5 else if 0xE1 ≤ b.toNat ∧ b.toNat < 0xF0 then 3 else if b.toNat = 0xF0 then 6
        else if 0xF1 ≤ b.toNat ∧ b.toNat < 0xF4 then 7 else if b.toNat = 0xF4 then 8 else 1)
    else if s = 2 then (if 0x80 ≤ b.toNat ∧ b.toNat < 0xC0 then 0 else 1)
    else if s = 3 then (if 0x80 ≤ b.toNat ∧ b.toNat < 0xC0 then 2 else 1)
    else if s = 4 then (if 0xA0 ≤ b.toNat ∧ b.toNat < 0xC0 then 2 else 1)
    else if s = 5 then (if 0x80 ≤ b.toNat ∧ b.toNat < 0xA0 then 2 else 1)
    else if s = 6 then (if 0x90 ≤ b.toNat ∧ b.toNat < 0xC0 then 3 else 1)
    else if s = 7 then (if 0x80 ≤ b.toNat ∧ b.toNat < 0xC0 then 3 else 1)
    else if s = 8 then (if 0x80 ≤ b.toNat ∧ b.toNat < 0x90 then 3 else 1)
    else 1 := by
  unfold nextState
  by_cases hs : s < 9
  · have key : ∀ s < 9, ∀ n : Fin 256, transitions.getD (s * 16 + byteClass (UInt8.ofFin n)) 1 =
      if s = 0 then
      (if n.val < 0x80 then 0 else if 0xC2 ≤ n.val ∧ n.val < 0xE0 then 2 else if n.val = 0xE0 then 4
        else if n.val = 0xED then 5 else if 0xE1 ≤ n.val ∧ n.val < 0xF0 then 3 else if n.val = 0xF0 then 6
        else if 0xF1 ≤ n.val ∧ n.val < 0xF4 then 7 else if n.val = 0xF4 then 8 else 1)
    else if s = 2 then (if 0x80 ≤ n.val ∧ n.val < 0xC0 then 0 else 1)
    else if s = 3 then (if 0x80 ≤ n.val ∧ n.val < 0xC0 then 2 else 1)
    else if s = 4 then (if 0xA0 ≤ n.val ∧ n.val < 0xC0 then 2 else 1)
    else if s = 5 then (if 0x80 ≤ n.val ∧ n.val < 0xA0 then 2 else 1)
    else if s = 6 then (if 0x90 ≤ n.val ∧ n.val < 0xC0 then 3 else 1)
    else if s = 7 then (if 0x80 ≤ n.val ∧ n.val < 0xC0 then 3 else 1)
    else if s = 8 then (if 0x80 ≤ n.val ∧ n.val < 0x90 then 3 else 1)
    else 1 := by decide +kernel
    exact key s hs b.toFin
  · rw [List.getD_eq_getElem?_getD, List.getElem?_eq_none]
    · split_ifs <;> first | rfl | omega
    · have : transitions.length = 144 := rfl
      omega

theorem first_bits (b : UInt8) (h : nextState 0 b ≠ 1) : (0xff >>> byteClass b) &&& b.toNat =
    if b.toNat < 0x80 then b.toNat else if b.toNat < 0xE0 then b.toNat - 0xC0 else if b.toNat < 0xF0 then b.toNat - 0xE0
    else b.toNat - 0xF0 := by
  have key : ∀ n : Fin 256, transitions.getD (0 * 16 + byteClass (UInt8.ofFin n)) 1 ≠ 1 → (0xff >>> byteClass (UInt8.ofFin n)) &&& n.val =
    if n.val < 0x80 then n.val else if n.val < 0xE0 then n.val - 0xC0 else if n.val < 0xF0 then n.val - 0xE0
    else n.val - 0xF0 := by decide +kernel
  exact key b.toFin h

theorem more_bits (n cp : Nat) (h : 0x80 ≤ n ∧ n < 0xC0) : (n &&& 0x3f) ||| (cp <<< 6) = cp * 64 + (n - 0x80) := by
  have h1 : n &&& 0x3f = n - 0x80 := by
    rw [show (0x3f : Nat) = 2 ^ 6 - 1 from rfl, Nat.and_two_pow_sub_one_eq_mod]
    omega
  rw [h1, Nat.or_comm, ← Nat.shiftLeft_add_eq_or_of_lt (by omega), Nat.shiftLeft_eq]

/-- In the accepting state the code point does not matter. -/
theorem dumpEscaped_start (cp cp' : Nat) (bs : List UInt8) : dumpEscaped ⟨0, cp⟩ bs = dumpEscaped ⟨0, cp'⟩ bs := by
  cases bs with
  | nil => rfl
  | cons b bs => simp [dumpEscaped, Decoder.step]

theorem step_state (s cp : Nat) (b : UInt8) : (Decoder.step ⟨s, cp⟩ b).state = nextState s b := rfl

theorem step_first {b : UInt8} {cp t : Nat} (h : nextState 0 b = t) (ht : t ≠ 1) :
    Decoder.step ⟨0, cp⟩ b = ⟨t, if b.toNat < 0x80 then b.toNat else if b.toNat < 0xE0 then b.toNat - 0xC0
      else if b.toNat < 0xF0 then b.toNat - 0xE0 else b.toNat - 0xF0⟩ := by
  have := first_bits b (h ▸ ht)
  unfold Decoder.step
  simp only [ne_eq, not_true_eq_false, if_false]
  rw [this, Decoder.mk.injEq]
  exact ⟨h, rfl⟩

theorem step_more {b : UInt8} {s cp t : Nat} (hs : s ≠ 0) (h : nextState s b = t)
    (hb : 0x80 ≤ b.toNat ∧ b.toNat < 0xC0) :
    Decoder.step ⟨s, cp⟩ b = ⟨t, cp * 64 + (b.toNat - 0x80)⟩ := by
  unfold Decoder.step
  simp only [ne_eq, hs, not_false_eq_true, if_true]
  rw [more_bits _ _ hb, Decoder.mk.injEq]
  exact ⟨h, rfl⟩

theorem dump_accept {d d' : Decoder} {b : UInt8} {bs : List UInt8} (h : d.step b = d') (h0 : d'.state = 0) :
    dumpEscaped d (b :: bs) = (dumpEscaped d' bs >>= fun r => ok (escaped d'.codepoint b ++ r)) := by
  rw [dumpEscaped, h, if_pos h0]; rfl

theorem dump_more {d d' : Decoder} {b : UInt8} {bs : List UInt8} (h : d.step b = d') (h0 : d'.state ≠ 0) (h1 : d'.state ≠ 1) :
    dumpEscaped d (b :: bs) = (dumpEscaped d' bs >>= fun r => ok (b :: r)) := by
  rw [dumpEscaped, h, if_neg h0, if_neg h1]; rfl

theorem dump_reject {d : Decoder} {b : UInt8} {bs : List UInt8} (h : (d.step b).state = 1) :
    dumpEscaped d (b :: bs) = throws .encoding := by
  rw [dumpEscaped, h]; rfl

theorem ofNat_toNat {n : Nat} (h : n < 256) : (UInt8.ofNat n).toNat = n := by
  rw [UInt8.toNat_ofNat']; omega

theorem escape_small {c : Char} (h : c.toNat < 128) : utf8 (Json.escape c) = escaped c.toNat (UInt8.ofNat c.toNat) := by
  have key : ∀ n : Fin 128, utf8 (Json.escape (Char.ofNat n.val)) = escaped n.val (UInt8.ofNat n.val) := by decide +kernel
  have := key ⟨c.toNat, h⟩
  simpa using this

theorem escape_large {c : Char} (h : 128 ≤ c.toNat) : Json.escape c = [c] := by
  unfold Json.escape
  have h1 : c ≠ '"' := by rintro rfl; simp at h
  have h2 : c ≠ '\\' := by rintro rfl; simp at h
  rw [if_neg h1, if_neg h2]
  repeat rw [if_neg (by omega)]

theorem escaped_large {cp : Nat} (h : 128 ≤ cp) (b : UInt8) : escaped cp b = [b] := by
  unfold escaped
  repeat rw [if_neg (by omega)]

theorem encodeChar (c : Char) : String.utf8EncodeChar c =
    if c.toNat ≤ 0x7f then [UInt8.ofNat c.toNat]
    else if c.toNat ≤ 0x7ff then [UInt8.ofNat (c.toNat / 64 % 0x20 + 0xc0), UInt8.ofNat (c.toNat % 0x40 + 0x80)]
    else if c.toNat ≤ 0xffff then
      [UInt8.ofNat (c.toNat / 4096 % 0x10 + 0xe0), UInt8.ofNat (c.toNat / 64 % 0x40 + 0x80), UInt8.ofNat (c.toNat % 0x40 + 0x80)]
    else [UInt8.ofNat (c.toNat / 262144 % 0x08 + 0xf0), UInt8.ofNat (c.toNat / 4096 % 0x40 + 0x80), UInt8.ofNat (c.toNat / 64 % 0x40 + 0x80),
      UInt8.ofNat (c.toNat % 0x40 + 0x80)] := rfl

theorem char_range (c : Char) : c.toNat < 0xD800 ∨ 0xDFFF < c.toNat ∧ c.toNat < 0x110000 := c.valid

/-- Continuation bytes -/
def Cont (b : UInt8) : Prop := 0x80 ≤ b.toNat ∧ b.toNat < 0xC0

theorem dump_one {b : UInt8} (h : b.toNat < 0x80) (cp : Nat) (rest : List UInt8) :
    dumpEscaped ⟨0, cp⟩ (b :: rest) = (dumpEscaped ⟨0, 0⟩ rest >>= fun r => ok (escaped b.toNat b ++ r)) := by
  have h0 : nextState 0 b = 0 := by rw [next_state, if_pos rfl, if_pos h]
  rw [dump_accept (step_first h0 (by decide)) rfl, dumpEscaped_start _ 0]
  simp only [if_pos h]

theorem dump_two_last {b : UInt8} (h : Cont b) {cp : Nat} (hcp : 2 ≤ cp) (rest : List UInt8) :
    dumpEscaped ⟨2, cp⟩ (b :: rest) = (dumpEscaped ⟨0, 0⟩ rest >>= fun r => ok (b :: r)) := by
  have h0 : nextState 2 b = 0 := by rw [next_state, if_neg (by decide), if_pos rfl, if_pos (show _ ∧ _ from h)]
  rw [dump_accept (step_more (by decide) h0 h) rfl, dumpEscaped_start _ 0]
  simp only []
  rw [escaped_large (by omega)]
  rfl

theorem dump_step {s t cp : Nat} {b : UInt8} (hs : s ≠ 0) (hn : nextState s b = t) (h0 : t ≠ 0) (h1 : t ≠ 1) (h : Cont b) (rest : List UInt8) :
    dumpEscaped ⟨s, cp⟩ (b :: rest) = (dumpEscaped ⟨t, cp * 64 + (b.toNat - 0x80)⟩ rest >>= fun r => ok (b :: r)) :=
  dump_more (step_more hs hn h) h0 h1

theorem dump_lead {t cp : Nat} {b : UInt8} (hn : nextState 0 b = t) (h0 : t ≠ 0) (h1 : t ≠ 1) (rest : List UInt8) :
    dumpEscaped ⟨0, cp⟩ (b :: rest) = (dumpEscaped ⟨t, if b.toNat < 0x80 then b.toNat else if b.toNat < 0xE0 then b.toNat - 0xC0
      else if b.toNat < 0xF0 then b.toNat - 0xE0 else b.toNat - 0xF0⟩ rest >>= fun r => ok (b :: r)) :=
  dump_more (step_first hn h1) h0 h1

theorem dump_two {b0 b1 : UInt8} (h : 0xC2 ≤ b0.toNat ∧ b0.toNat < 0xE0) (h1 : Cont b1) (cp : Nat) (rest : List UInt8) :
    dumpEscaped ⟨0, cp⟩ (b0 :: b1 :: rest) = (dumpEscaped ⟨0, 0⟩ rest >>= fun r => ok (b0 :: b1 :: r)) := by
  have hn : nextState 0 b0 = 2 := by rw [next_state]; split_ifs <;> omega
  rw [dump_lead hn (by decide) (by decide), if_neg (by omega), if_pos (by omega), dump_two_last h1 (by omega), bind_assoc]
  rfl

theorem dump_three {b0 b1 b2 : UInt8} (h : 0xE0 ≤ b0.toNat ∧ b0.toNat < 0xF0) (h1 : Cont b1) (h2 : Cont b2)
    (hlo : b0.toNat = 0xE0 → 0xA0 ≤ b1.toNat) (hhi : b0.toNat = 0xED → b1.toNat < 0xA0) (cp : Nat) (rest : List UInt8) :
    dumpEscaped ⟨0, cp⟩ (b0 :: b1 :: b2 :: rest) = (dumpEscaped ⟨0, 0⟩ rest >>= fun r => ok (b0 :: b1 :: b2 :: r)) := by
  unfold Cont at h1
  obtain ⟨t, ht, ht0, ht1, ht2⟩ : ∃ t, nextState 0 b0 = t ∧ t ≠ 0 ∧ t ≠ 1 ∧ nextState t b1 = 2 := by
    rcases (by omega : b0.toNat = 0xE0 ∨ b0.toNat = 0xED ∨ (b0.toNat ≠ 0xE0 ∧ b0.toNat ≠ 0xED)) with e | e | ⟨e, e'⟩
    · refine ⟨4, ?_, by decide, by decide, ?_⟩
      · rw [next_state]; split_ifs <;> omega
      · have := hlo e
        rw [next_state]; simp; omega
    · refine ⟨5, ?_, by decide, by decide, ?_⟩
      · rw [next_state]; split_ifs <;> omega
      · have := hhi e
        rw [next_state]; simp; omega
    · refine ⟨3, ?_, by decide, by decide, ?_⟩
      · rw [next_state]; split_ifs <;> omega
      · rw [next_state]; simp; omega
  have hcp : 2 ≤ (b0.toNat - 0xE0) * 64 + (b1.toNat - 0x80) := by
    by_cases e : b0.toNat = 0xE0
    · have := hlo e; omega
    · omega
  rw [dump_lead ht ht0 ht1, dump_step ht0 ht2 (by decide) (by decide) h1, if_neg (by omega), if_neg (by omega), if_pos (by omega),
    dump_two_last h2 hcp, bind_assoc, bind_assoc]
  rfl

theorem dump_four {b0 b1 b2 b3 : UInt8} (h : 0xF0 ≤ b0.toNat ∧ b0.toNat ≤ 0xF4) (h1 : Cont b1) (h2 : Cont b2) (h3 : Cont b3)
    (hlo : b0.toNat = 0xF0 → 0x90 ≤ b1.toNat) (hhi : b0.toNat = 0xF4 → b1.toNat < 0x90) (cp : Nat) (rest : List UInt8) :
    dumpEscaped ⟨0, cp⟩ (b0 :: b1 :: b2 :: b3 :: rest) = (dumpEscaped ⟨0, 0⟩ rest >>= fun r => ok (b0 :: b1 :: b2 :: b3 :: r)) := by
  unfold Cont at h1
  obtain ⟨t, ht, ht0, ht1, ht2⟩ : ∃ t, nextState 0 b0 = t ∧ t ≠ 0 ∧ t ≠ 1 ∧ nextState t b1 = 3 := by
    rcases (by omega : b0.toNat = 0xF0 ∨ b0.toNat = 0xF4 ∨ (b0.toNat ≠ 0xF0 ∧ b0.toNat ≠ 0xF4)) with e | e | ⟨e, e'⟩
    · refine ⟨6, ?_, by decide, by decide, ?_⟩
      · rw [next_state]; split_ifs <;> omega
      · have := hlo e
        rw [next_state]; simp; omega
    · refine ⟨8, ?_, by decide, by decide, ?_⟩
      · rw [next_state]; split_ifs <;> omega
      · have := hhi e
        rw [next_state]; simp; omega
    · refine ⟨7, ?_, by decide, by decide, ?_⟩
      · rw [next_state]; split_ifs <;> omega
      · rw [next_state]; simp; omega
  have h32 : nextState 3 b2 = 2 := by
    unfold Cont at h2
    rw [next_state]; simp; omega
  have hcp : 2 ≤ ((b0.toNat - 0xF0) * 64 + (b1.toNat - 0x80)) * 64 + (b2.toNat - 0x80) := by
    by_cases e : b0.toNat = 0xF0
    · have := hlo e; omega
    · omega
  rw [dump_lead ht ht0 ht1, dump_step ht0 ht2 (by decide) (by decide) h1, dump_step (by decide) h32 (by decide) (by decide) h2,
    if_neg (by omega), if_neg (by omega), if_neg (by omega), dump_two_last h3 hcp, bind_assoc, bind_assoc, bind_assoc]
  rfl

/-- A character is copied or escaped. -/
theorem dump_char (c : Char) (cp : Nat) (rest : List UInt8) :
    dumpEscaped ⟨0, cp⟩ (String.utf8EncodeChar c ++ rest) = (dumpEscaped ⟨0, 0⟩ rest >>= fun r => ok (utf8 (Json.escape c) ++ r)) := by
  have hr := char_range c
  by_cases h1 : c.toNat ≤ 0x7f
  · rw [encodeChar, if_pos h1, List.singleton_append, dump_one (by rw [ofNat_toNat] <;> omega), ofNat_toNat (by omega), escape_small (by omega)]
  rw [escape_large (by omega), utf8_cons, utf8_nil, List.append_nil, encodeChar, if_neg h1]
  split_ifs with h2 h3
  · have e0 := ofNat_toNat (n := c.toNat / 64 % 0x20 + 0xc0) (by omega)
    have e1 := ofNat_toNat (n := c.toNat % 0x40 + 0x80) (by omega)
    exact dump_two (by omega) ⟨by omega, by omega⟩ _ _
  · have e0 := ofNat_toNat (n := c.toNat / 4096 % 0x10 + 0xe0) (by omega)
    have e1 := ofNat_toNat (n := c.toNat / 64 % 0x40 + 0x80) (by omega)
    have e2 := ofNat_toNat (n := c.toNat % 0x40 + 0x80) (by omega)
    exact dump_three (by omega) ⟨by omega, by omega⟩ ⟨by omega, by omega⟩ (by omega) (by omega) _ _
  · have e0 := ofNat_toNat (n := c.toNat / 262144 % 0x08 + 0xf0) (by omega)
    have e1 := ofNat_toNat (n := c.toNat / 4096 % 0x40 + 0x80) (by omega)
    have e2 := ofNat_toNat (n := c.toNat / 64 % 0x40 + 0x80) (by omega)
    have e3 := ofNat_toNat (n := c.toNat % 0x40 + 0x80) (by omega)
    exact dump_four (by omega) ⟨by omega, by omega⟩ ⟨by omega, by omega⟩ ⟨by omega, by omega⟩ (by omega) (by omega) _ _

theorem dump_utf8 (cs : List Char) : dumpEscaped ⟨0, 0⟩ (utf8 cs) = ok (utf8 (cs.flatMap Json.escape)) := by
  induction cs with
  | nil => rfl
  | cons c cs ih => rw [utf8_cons, dump_char, ih, ok_bind, List.flatMap_cons, utf8_append]

theorem char_of {v : Nat} (h : v < 0xD800 ∨ 0xDFFF < v ∧ v < 0x110000) : ∃ c : Char, c.toNat = v := by
  have hv : v.isValidChar := h
  exact ⟨Char.ofNatAux v hv, by simp [Char.ofNatAux, Char.toNat, UInt32.toNat, BitVec.toNat]⟩

theorem byte_eq {b : UInt8} {n : Nat} (h : b.toNat = n) : UInt8.ofNat n = b := by
  rw [← h]; exact UInt8.ofNat_toNat

theorem encode_one {b : UInt8} (h : b.toNat < 0x80) : ∃ c : Char, String.utf8EncodeChar c = [b] := by
  obtain ⟨c, hc⟩ := char_of (v := b.toNat) (by omega)
  exact ⟨c, by rw [encodeChar, hc, if_pos (by omega), byte_eq rfl]⟩

theorem encode_two {b0 b1 : UInt8} (h : 0xC2 ≤ b0.toNat ∧ b0.toNat < 0xE0) (h1 : Cont b1) :
    ∃ c : Char, String.utf8EncodeChar c = [b0, b1] := by
  unfold Cont at h1
  obtain ⟨c, hc⟩ := char_of (v := (b0.toNat - 0xC0) * 64 + (b1.toNat - 0x80)) (by omega)
  exact ⟨c, by rw [encodeChar, hc, if_neg (by omega), if_pos (by omega), byte_eq (b := b0) (by omega), byte_eq (b := b1) (by omega)]⟩

theorem encode_three {b0 b1 b2 : UInt8} (h : 0xE0 ≤ b0.toNat ∧ b0.toNat < 0xF0) (h1 : Cont b1) (h2 : Cont b2)
    (hlo : b0.toNat = 0xE0 → 0xA0 ≤ b1.toNat) (hhi : b0.toNat = 0xED → b1.toNat < 0xA0) :
    ∃ c : Char, String.utf8EncodeChar c = [b0, b1, b2] := by
  unfold Cont at h1 h2
  obtain ⟨c, hc⟩ := char_of (v := (b0.toNat - 0xE0) * 4096 + (b1.toNat - 0x80) * 64 + (b2.toNat - 0x80)) (by omega)
  exact ⟨c, by rw [encodeChar, hc, if_neg (by omega), if_neg (by omega), if_pos (by omega), byte_eq (b := b0) (by omega),
    byte_eq (b := b1) (by omega), byte_eq (b := b2) (by omega)]⟩

theorem encode_four {b0 b1 b2 b3 : UInt8} (h : 0xF0 ≤ b0.toNat ∧ b0.toNat ≤ 0xF4) (h1 : Cont b1) (h2 : Cont b2) (h3 : Cont b3)
    (hlo : b0.toNat = 0xF0 → 0x90 ≤ b1.toNat) (hhi : b0.toNat = 0xF4 → b1.toNat < 0x90) :
    ∃ c : Char, String.utf8EncodeChar c = [b0, b1, b2, b3] := by
  unfold Cont at h1 h2 h3
  obtain ⟨c, hc⟩ := char_of (v := (b0.toNat - 0xF0) * 262144 + (b1.toNat - 0x80) * 4096 + (b2.toNat - 0x80) * 64 + (b3.toNat - 0x80)) (by omega)
  exact ⟨c, by rw [encodeChar, hc, if_neg (by omega), if_neg (by omega), if_neg (by omega), byte_eq (b := b0) (by omega),
    byte_eq (b := b1) (by omega), byte_eq (b := b2) (by omega), byte_eq (b := b3) (by omega)]⟩

/-- If the automaton goes on, there is a next byte, and it is not rejected. -/
theorem dump_next {s cp : Nat} {bs out : List UInt8} (hs : s ≠ 0) (h : dumpEscaped ⟨s, cp⟩ bs = ok out) :
    ∃ b rest, bs = b :: rest ∧ nextState s b ≠ 1 ∧ ∃ cp' out', dumpEscaped ⟨nextState s b, cp'⟩ rest = ok out' := by
  cases bs with
  | nil => rw [dumpEscaped, if_neg hs] at h; cases h
  | cons b rest =>
    refine ⟨b, rest, rfl, ?_, ?_⟩
    · intro h1
      rw [dump_reject (by rw [step_state, h1])] at h
      cases h
    · rw [dumpEscaped] at h
      split_ifs at h
      · obtain ⟨r, hr, _⟩ := bind_eq_ok.1 h
        exact ⟨_, r, hr⟩
      · obtain ⟨r, hr, _⟩ := bind_eq_ok.1 h
        exact ⟨_, r, hr⟩

theorem next_two {b : UInt8} (h : nextState 2 b ≠ 1) : Cont b ∧ nextState 2 b = 0 := by
  rw [next_state, if_neg (by decide), if_pos rfl] at h ⊢
  split_ifs at h ⊢ with h1
  · exact ⟨h1, rfl⟩
  · exact absurd rfl h

theorem next_three {b : UInt8} (h : nextState 3 b ≠ 1) : Cont b ∧ nextState 3 b = 2 := by
  rw [next_state, if_neg (by decide), if_neg (by decide), if_pos rfl] at h ⊢
  split_ifs at h ⊢ with h1
  · exact ⟨h1, rfl⟩
  · exact absurd rfl h

theorem next_lead_three {b0 b1 : UInt8} (h : 0xE0 ≤ b0.toNat ∧ b0.toNat < 0xF0) (hn : nextState (nextState 0 b0) b1 ≠ 1) :
    Cont b1 ∧ (b0.toNat = 0xE0 → 0xA0 ≤ b1.toNat) ∧ (b0.toNat = 0xED → b1.toNat < 0xA0) ∧ nextState (nextState 0 b0) b1 = 2 := by
  unfold Cont
  rcases (by omega : b0.toNat = 0xE0 ∨ b0.toNat = 0xED ∨ (b0.toNat ≠ 0xE0 ∧ b0.toNat ≠ 0xED)) with e | e | ⟨e, e'⟩
  · have e2 : nextState 0 b0 = 4 := by rw [next_state]; split_ifs <;> omega
    rw [e2, next_state] at hn ⊢
    simp only [Nat.reduceEqDiff, OfNat.ofNat_ne_zero, if_false, if_true] at hn ⊢
    split_ifs at hn ⊢ <;> omega
  · have e2 : nextState 0 b0 = 5 := by rw [next_state]; split_ifs <;> omega
    rw [e2, next_state] at hn ⊢
    simp only [Nat.reduceEqDiff, OfNat.ofNat_ne_zero, if_false, if_true] at hn ⊢
    split_ifs at hn ⊢ <;> omega
  · have e2 : nextState 0 b0 = 3 := by rw [next_state]; split_ifs <;> omega
    rw [e2, next_state] at hn ⊢
    simp only [Nat.reduceEqDiff, OfNat.ofNat_ne_zero, if_false, if_true] at hn ⊢
    split_ifs at hn ⊢ <;> omega

theorem next_lead_four {b0 b1 : UInt8} (h : 0xF0 ≤ b0.toNat ∧ b0.toNat ≤ 0xF4) (hn : nextState (nextState 0 b0) b1 ≠ 1) :
    Cont b1 ∧ (b0.toNat = 0xF0 → 0x90 ≤ b1.toNat) ∧ (b0.toNat = 0xF4 → b1.toNat < 0x90) ∧ nextState (nextState 0 b0) b1 = 3 := by
  unfold Cont
  rcases (by omega : b0.toNat = 0xF0 ∨ b0.toNat = 0xF4 ∨ (b0.toNat ≠ 0xF0 ∧ b0.toNat ≠ 0xF4)) with e | e | ⟨e, e'⟩
  · have e2 : nextState 0 b0 = 6 := by rw [next_state]; split_ifs <;> omega
    rw [e2, next_state] at hn ⊢
    simp only [Nat.reduceEqDiff, OfNat.ofNat_ne_zero, if_false, if_true] at hn ⊢
    split_ifs at hn ⊢ <;> omega
  · have e2 : nextState 0 b0 = 8 := by rw [next_state]; split_ifs <;> omega
    rw [e2, next_state] at hn ⊢
    simp only [Nat.reduceEqDiff, OfNat.ofNat_ne_zero, if_false, if_true] at hn ⊢
    split_ifs at hn ⊢ <;> omega
  · have e2 : nextState 0 b0 = 7 := by rw [next_state]; split_ifs <;> omega
    rw [e2, next_state] at hn ⊢
    simp only [Nat.reduceEqDiff, OfNat.ofNat_ne_zero, if_false, if_true] at hn ⊢
    split_ifs at hn ⊢ <;> omega

/-- What the automaton accepts is UTF-8. -/
theorem dump_sound (n : Nat) : ∀ (bs out : List UInt8) (cp : Nat), bs.length ≤ n → dumpEscaped ⟨0, cp⟩ bs = ok out → ∃ cs, bs = utf8 cs := by
  induction n with
  | zero =>
    intro bs out cp hn _
    exact ⟨[], List.eq_nil_of_length_eq_zero (by omega)⟩
  | succ n ih =>
    intro bs out cp hn h
    match bs, hn, h with
    | [], _, _ => exact ⟨[], rfl⟩
    | b0 :: r0, hn, h =>
      have finish : ∀ (pre rest : List UInt8), b0 :: r0 = pre ++ rest → (∃ c : Char, String.utf8EncodeChar c = pre) → rest.length ≤ n →
          ∃ cs, b0 :: r0 = utf8 cs := by
        rintro pre rest e ⟨c, rfl⟩ hl
        rw [e, dump_char] at h
        obtain ⟨r, hr, _⟩ := bind_eq_ok.1 h
        obtain ⟨cs, rfl⟩ := ih _ _ _ hl hr
        exact ⟨c :: cs, e⟩
      have hl : r0.length ≤ n := by simpa using hn
      by_cases h80 : b0.toNat < 0x80
      · exact finish [b0] r0 rfl (encode_one h80) hl
      have hne : nextState 0 b0 ≠ 1 := by
        intro h1
        rw [dump_reject (by rw [step_state, h1])] at h
        cases h
      have hn0 : nextState 0 b0 ≠ 0 := by
        rw [next_state]; split_ifs <;> omega
      rw [dump_lead rfl hn0 hne] at h
      obtain ⟨o1, h, -⟩ := bind_eq_ok.1 h
      obtain ⟨b1, r1, rfl, n1, cp1, o1', h⟩ := dump_next hn0 h
      simp only [List.length_cons] at hl
      have cases0 : 0xC2 ≤ b0.toNat ∧ b0.toNat < 0xE0 ∨ 0xE0 ≤ b0.toNat ∧ b0.toNat < 0xF0 ∨ 0xF0 ≤ b0.toNat ∧ b0.toNat ≤ 0xF4 := by
        rw [next_state] at hne
        split_ifs at hne <;> omega
      rcases cases0 with c0 | c0 | c0
      · have e : nextState 0 b0 = 2 := by rw [next_state]; split_ifs <;> omega
        rw [e] at n1
        exact finish [b0, b1] r1 rfl (encode_two c0 (next_two n1).1) (by omega)
      · obtain ⟨q1, q2, q3, q4⟩ := next_lead_three c0 n1
        rw [q4] at h
        obtain ⟨b2, r2, rfl, n2, -⟩ := dump_next (by decide) h
        simp only [List.length_cons] at hl
        exact finish [b0, b1, b2] r2 rfl (encode_three c0 q1 (next_two n2).1 q2 q3) (by omega)
      · obtain ⟨q1, q2, q3, q4⟩ := next_lead_four c0 n1
        rw [q4] at h
        obtain ⟨b2, r2, rfl, n2, cp2, o2, h⟩ := dump_next (by decide) h
        obtain ⟨q5, q6⟩ := next_three n2
        rw [q6] at h
        obtain ⟨b3, r3, rfl, n3, -⟩ := dump_next (by decide) h
        simp only [List.length_cons] at hl
        exact finish [b0, b1, b2, b3] r3 rfl (encode_four c0 q1 q5 (next_two n3).1 q2 q3) (by omega)

theorem dump_never_ub (d : Decoder) (bs : List UInt8) : (∃ out, dumpEscaped d bs = ok out) ∨ dumpEscaped d bs = throws .encoding := by
  induction bs generalizing d with
  | nil => rw [dumpEscaped]; split_ifs <;> simp
  | cons b bs ih =>
    rw [dumpEscaped]
    split_ifs
    · rcases ih (d.step b) with ⟨o, h⟩ | h <;> rw [h]
      · exact Or.inl ⟨_, rfl⟩
      · exact Or.inr rfl
    · exact Or.inr rfl
    · rcases ih (d.step b) with ⟨o, h⟩ | h <;> rw [h]
      · exact Or.inl ⟨_, rfl⟩
      · exact Or.inr rfl

/-! ### Values -/

theorem ascii_append (l l' : List Char) : ascii (l ++ l') = ascii l ++ ascii l' := List.map_append
theorem ascii_cons (c : Char) (l : List Char) : ascii (c :: l) = ascii [c] ++ ascii l := rfl

theorem utf8_ascii {l : List Char} (h : ∀ c ∈ l, c.toNat < 128) : utf8 l = ascii l := by
  induction l with
  | nil => rfl
  | cons c l ih =>
    have hc := h c List.mem_cons_self
    rw [utf8_cons, ih fun c hc => h c (List.mem_cons_of_mem _ hc), encodeChar, if_pos (by omega)]
    rfl

theorem isUtf8_ascii {s : String} (h : ∀ c ∈ s.toList, c.toNat < 128) : Utf8Text s := ⟨s.toList, (utf8_ascii h).symm⟩

theorem bytesOf_asBytes (s : String) : bytesOf (asBytes s) = utf8 s.toList := by
  unfold bytesOf asBytes ascii
  rw [String.toList_ofList, List.map_map]
  conv_rhs => rw [← List.map_id (utf8 s.toList)]
  refine List.map_congr_left fun b _ => ?_
  have hb := b.toNat_lt
  have : (Char.ofNat b.toNat).toNat = b.toNat := by
    obtain ⟨c, hc⟩ := char_of (v := b.toNat) (by omega)
    rw [← hc, Char.ofNat_toNat]
  rw [Function.comp, this]
  exact byte_eq rfl

theorem quote_utf8 (s : String) : quote (asBytes s) = ok (utf8 (Json.quote s)) := by
  unfold quote
  rw [bytesOf_asBytes, dump_utf8, ok_bind]
  unfold Json.quote
  rw [utf8_cons, utf8_append]
  rfl

theorem quote_ok {s : String} (h : Utf8Text s) : ∃ out, quote s = ok out := by
  obtain ⟨cs, h⟩ := h
  unfold quote bytesOf ascii
  rw [h, dump_utf8, ok_bind]
  exact ⟨_, rfl⟩

theorem quote_throws {s : String} (h : ¬ Utf8Text s) : quote s = throws .encoding := by
  unfold quote
  rcases dump_never_ub ⟨0, 0⟩ (bytesOf s) with ⟨out, h1⟩ | h1
  · exact absurd (dump_sound _ _ _ _ le_rfl h1) h
  · rw [h1]; rfl

theorem digits_small (n : Nat) : ∀ c ∈ Nat.toDigits 10 n, c.toNat < 128 := by
  intro c hc
  have := Nat.isDigit_of_mem_toDigits (by decide) (by decide) hc
  simp [Char.isDigit, UInt32.le_iff_toNat_le] at this
  have h2 : c.toNat = c.val.toNat := rfl
  omega

theorem integer_small (i : Int) : ∀ c ∈ Json.integer i, c.toNat < 128 := by
  intro c hc
  unfold Json.integer at hc
  split at hc
  · rcases List.mem_cons.1 hc with rfl | hc
    · decide
    · exact digits_small _ c hc
  · exact digits_small _ c hc

theorem newLine_small (n : Nat) : ∀ c ∈ Json.newLine n, c.toNat < 128 := by
  intro c hc
  rcases List.mem_cons.1 hc with rfl | hc
  · decide
  · rw [List.eq_of_mem_replicate hc]; decide

theorem utf8_newLine (n : Nat) : utf8 (Json.newLine n) = ascii (Json.newLine n) := utf8_ascii (newLine_small n)

mutual

/-- The bytes of a value with encoded texts are the encoding of its text. -/
theorem dump_asBytes (n : Nat) (j : Json) : dump n j.asBytes = ok (utf8 (Json.dump n j)) := by
  match j with
  | .int i =>
    rw [Json.asBytes, dump, Json.dump, utf8_ascii (integer_small i)]
  | .str s =>
    rw [Json.asBytes, dump, Json.dump, quote_utf8]
  | .arr [] => rw [Json.asBytes, Json.asBytesList, dump, Json.dump]; rfl
  | .arr (x :: xs) =>
    rw [Json.asBytes, Json.asBytesList, dump, dump_asBytes, ok_bind, dumpElements_asBytes, ok_bind, Json.dump]
    simp only [utf8_cons, utf8_append, utf8_newLine, utf8_nil, ascii_append, List.append_assoc]
    rfl
  | .obj [] => rw [Json.asBytes, Json.asBytesMembers, dump, Json.dump]; rfl
  | .obj ((k, x) :: ms) =>
    rw [Json.asBytes, Json.asBytesMembers, dump, quote_utf8, ok_bind, dump_asBytes, ok_bind, dumpMembers_asBytes, ok_bind, Json.dump]
    simp only [utf8_cons, utf8_append, utf8_newLine, utf8_nil, ascii_append, List.append_assoc]
    rfl

theorem dumpElements_asBytes (n : Nat) (l : List Json) : dumpElements n (Json.asBytesList l) = ok (utf8 (Json.dumpElements n l)) := by
  match l with
  | [] => rw [Json.asBytesList, dumpElements, Json.dumpElements]; rfl
  | x :: xs =>
    rw [Json.asBytesList, dumpElements, dump_asBytes, ok_bind, dumpElements_asBytes, ok_bind, Json.dumpElements]
    simp only [utf8_cons, utf8_append, utf8_newLine, List.append_assoc]
    rfl

theorem dumpMembers_asBytes (n : Nat) (l : List (String × Json)) : dumpMembers n (Json.asBytesMembers l) = ok (utf8 (Json.dumpMembers n l)) := by
  match l with
  | [] => rw [Json.asBytesMembers, dumpMembers, Json.dumpMembers]; rfl
  | (k, x) :: ms =>
    rw [Json.asBytesMembers, dumpMembers, quote_utf8, ok_bind, dump_asBytes, ok_bind, dumpMembers_asBytes, ok_bind, Json.dumpMembers]
    simp only [utf8_cons, utf8_append, utf8_newLine, List.append_assoc]
    rfl

end

mutual

/-- A value can be written if its texts are UTF-8. -/
theorem dump_ok (n : Nat) (j : Json) (h : ∀ s, HasText s j → Utf8Text s) : ∃ out, dump n j = ok out := by
  match j with
  | .int i => exact ⟨_, by rw [dump]⟩
  | .str s =>
    obtain ⟨o, ho⟩ := quote_ok (h s .str)
    exact ⟨o, by rw [dump, ho]⟩
  | .arr [] => exact ⟨_, by rw [dump]⟩
  | .arr (x :: xs) =>
    obtain ⟨o1, h1⟩ := dump_ok (n + 4) x fun s hs => h s (.arr List.mem_cons_self hs)
    obtain ⟨o2, h2⟩ := dumpElements_ok (n + 4) xs fun y hy s hs => h s (.arr (List.mem_cons_of_mem _ hy) hs)
    exact ⟨_, by rw [dump, h1, ok_bind, h2, ok_bind]; rfl⟩
  | .obj [] => exact ⟨_, by rw [dump]⟩
  | .obj ((k, x) :: ms) =>
    obtain ⟨o0, h0⟩ := quote_ok (h k (.key List.mem_cons_self))
    obtain ⟨o1, h1⟩ := dump_ok (n + 4) x fun s hs => h s (.obj List.mem_cons_self hs)
    obtain ⟨o2, h2⟩ := dumpMembers_ok (n + 4) ms fun y hy s hs => by
      rcases hs with rfl | hs
      · exact h _ (.key (List.mem_cons_of_mem _ hy))
      · exact h s (.obj (List.mem_cons_of_mem _ hy) hs)
    exact ⟨_, by rw [dump, h0, ok_bind, h1, ok_bind, h2, ok_bind]; rfl⟩

theorem dumpElements_ok (n : Nat) (l : List Json) (h : ∀ x ∈ l, ∀ s, HasText s x → Utf8Text s) : ∃ out, dumpElements n l = ok out := by
  match l with
  | [] => exact ⟨_, by rw [dumpElements]⟩
  | x :: xs =>
    obtain ⟨o1, h1⟩ := dump_ok n x (h x List.mem_cons_self)
    obtain ⟨o2, h2⟩ := dumpElements_ok n xs fun y hy => h y (List.mem_cons_of_mem _ hy)
    exact ⟨_, by rw [dumpElements, h1, ok_bind, h2, ok_bind]; rfl⟩

theorem dumpMembers_ok (n : Nat) (l : List (String × Json)) (h : ∀ x ∈ l, ∀ s, s = x.1 ∨ HasText s x.2 → Utf8Text s) :
    ∃ out, dumpMembers n l = ok out := by
  match l with
  | [] => exact ⟨_, by rw [dumpMembers]⟩
  | (k, x) :: ms =>
    obtain ⟨o0, h0⟩ := quote_ok (h (k, x) List.mem_cons_self k (.inl rfl))
    obtain ⟨o1, h1⟩ := dump_ok n x fun s hs => h (k, x) List.mem_cons_self s (.inr hs)
    obtain ⟨o2, h2⟩ := dumpMembers_ok n ms fun y hy => h y (List.mem_cons_of_mem _ hy)
    exact ⟨_, by rw [dumpMembers, h0, ok_bind, h1, ok_bind, h2, ok_bind]; rfl⟩

end

theorem quote_cases (s : String) : (Utf8Text s ∧ ∃ out, quote s = ok out) ∨ quote s = throws .encoding := by
  by_cases h : Utf8Text s
  · exact .inl ⟨h, quote_ok h⟩
  · exact .inr (quote_throws h)

mutual

/-- A value whose texts are not all UTF-8 cannot be written. -/
theorem dump_cases (n : Nat) (j : Json) : ((∀ s, HasText s j → Utf8Text s) ∧ ∃ out, dump n j = ok out) ∨ dump n j = throws .encoding := by
  match j with
  | .int i => exact .inl ⟨fun s hs => (by cases hs), _, by rw [dump]⟩
  | .str s =>
    rw [dump]
    rcases quote_cases s with ⟨h, h'⟩ | h
    · exact .inl ⟨fun t ht => by cases ht; exact h, h'⟩
    · exact .inr h
  | .arr [] => exact .inl ⟨fun s hs => (by cases hs with | arr h _ => cases h), _, by rw [dump]⟩
  | .arr (x :: xs) =>
    rw [dump]
    rcases dump_cases (n + 4) x with ⟨h1, o1, e1⟩ | e1
    · rcases dumpElements_cases (n + 4) xs with ⟨h2, o2, e2⟩ | e2
      · refine .inl ⟨fun s hs => ?_, _, by rw [e1, ok_bind, e2, ok_bind]; rfl⟩
        cases hs with
        | arr hm hs =>
          rcases List.mem_cons.1 hm with rfl | hm
          · exact h1 s hs
          · exact h2 _ hm s hs
      · exact .inr (by rw [e1, ok_bind, e2]; rfl)
    · exact .inr (by rw [e1]; rfl)
  | .obj [] => exact .inl ⟨fun s hs => (by cases hs with | obj h _ => cases h | key h => cases h), _, by rw [dump]⟩
  | .obj ((k, x) :: ms) =>
    rw [dump]
    rcases quote_cases k with ⟨h0, o0, e0⟩ | e0
    · rcases dump_cases (n + 4) x with ⟨h1, o1, e1⟩ | e1
      · rcases dumpMembers_cases (n + 4) ms with ⟨h2, o2, e2⟩ | e2
        · refine .inl ⟨fun s hs => ?_, _, by rw [e0, ok_bind, e1, ok_bind, e2, ok_bind]; rfl⟩
          cases hs with
          | key hm =>
            rcases List.mem_cons.1 hm with e | hm
            · cases e; exact h0
            · exact h2 _ hm s (.inl rfl)
          | obj hm hs =>
            rcases List.mem_cons.1 hm with e | hm
            · cases e; exact h1 s hs
            · exact h2 _ hm s (.inr hs)
        · exact .inr (by rw [e0, ok_bind, e1, ok_bind, e2]; rfl)
      · exact .inr (by rw [e0, ok_bind, e1]; rfl)
    · exact .inr (by rw [e0]; rfl)

theorem dumpElements_cases (n : Nat) (l : List Json) :
    ((∀ x ∈ l, ∀ s, HasText s x → Utf8Text s) ∧ ∃ out, dumpElements n l = ok out) ∨ dumpElements n l = throws .encoding := by
  match l with
  | [] => exact .inl ⟨fun x hx => (by cases hx), _, by rw [dumpElements]⟩
  | x :: xs =>
    rw [dumpElements]
    rcases dump_cases n x with ⟨h1, o1, e1⟩ | e1
    · rcases dumpElements_cases n xs with ⟨h2, o2, e2⟩ | e2
      · refine .inl ⟨fun y hy => ?_, _, by rw [e1, ok_bind, e2, ok_bind]; rfl⟩
        rcases List.mem_cons.1 hy with rfl | hy
        · exact h1
        · exact h2 y hy
      · exact .inr (by rw [e1, ok_bind, e2]; rfl)
    · exact .inr (by rw [e1]; rfl)

theorem dumpMembers_cases (n : Nat) (l : List (String × Json)) :
    ((∀ x ∈ l, ∀ s, s = x.1 ∨ HasText s x.2 → Utf8Text s) ∧ ∃ out, dumpMembers n l = ok out) ∨ dumpMembers n l = throws .encoding := by
  match l with
  | [] => exact .inl ⟨fun x hx => (by cases hx), _, by rw [dumpMembers]⟩
  | (k, x) :: ms =>
    rw [dumpMembers]
    rcases quote_cases k with ⟨h0, o0, e0⟩ | e0
    · rcases dump_cases n x with ⟨h1, o1, e1⟩ | e1
      · rcases dumpMembers_cases n ms with ⟨h2, o2, e2⟩ | e2
        · refine .inl ⟨fun y hy s hs => ?_, _, by rw [e0, ok_bind, e1, ok_bind, e2, ok_bind]; rfl⟩
          rcases List.mem_cons.1 hy with rfl | hy
          · rcases hs with rfl | hs
            · exact h0
            · exact h1 s hs
          · exact h2 y hy s hs
        · exact .inr (by rw [e0, ok_bind, e1, ok_bind, e2]; rfl)
      · exact .inr (by rw [e0, ok_bind, e1]; rfl)
    · exact .inr (by rw [e0]; rfl)

end

end Angonoka
