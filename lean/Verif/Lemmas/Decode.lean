import Verif.Model.Decode
import Verif.Spec.Decode
/-! # Lemmas for C86-C88: decoding is the inverse of encoding -/
namespace Verif.Decode

theorem isCont_iff {b : UInt8} : isCont b = true ↔ 0x80 ≤ b.toNat ∧ b.toNat ≤ 0xBF := by
  simp [isCont]

theorem valid_of {c : Char} : c.val.toNat < 0xD800 ∨ (0xDFFF < c.val.toNat ∧ c.val.toNat < 0x110000) := c.valid

theorem ofNat_val (c : Char) : Char.ofNat c.val.toNat = c := Char.ofNat_toNat c

theorem toNat_ofNat {n : Nat} (h : n < 0xD800 ∨ (0xDFFF < n ∧ n < 0x110000)) : (Char.ofNat n).val.toNat = n := by
  have : n.isValidChar := h
  rw [Char.ofNat, dif_pos this]
  rfl

theorem u8 {n : Nat} (h : n < 256) : (UInt8.ofNat n).toNat = n := by
  simp [Nat.mod_eq_of_lt h]

theorem u8_eq {b : UInt8} {n : Nat} (h : b.toNat = n) : UInt8.ofNat n = b := by
  subst h; simp

/-- The encoding of a character is decoded. -/
theorem decodeOne_encode (c : Char) (r : Bytes) : decodeOne (String.utf8EncodeChar c ++ r) = some (c, r) := by
  have hv := valid_of (c := c)
  have hc := ofNat_val c
  unfold String.utf8EncodeChar
  generalize hn : c.val.toNat = v at hv hc
  dsimp only
  by_cases h1 : v ≤ 0x7f
  · rw [if_pos h1]
    have e0 : (UInt8.ofNat v).toNat = v := u8 (by omega)
    simp only [List.cons_append, List.nil_append, decodeOne, e0, if_pos h1, hc]
  rw [if_neg h1]
  by_cases h2 : v ≤ 0x7ff
  · rw [if_pos h2]
    have e0 : (UInt8.ofNat (v / 64 % 0x20 + 0xc0)).toNat = v / 64 + 0xc0 := by rw [u8 (by omega)]; omega
    have e1 : (UInt8.ofNat (v % 0x40 + 0x80)).toNat = v % 64 + 0x80 := u8 (by omega)
    have c1 : isCont (UInt8.ofNat (v % 0x40 + 0x80)) = true := by rw [isCont_iff, e1]; omega
    simp only [List.cons_append, List.nil_append, decodeOne, e0]
    rw [if_neg (by omega), if_neg (by omega), if_pos (by omega), if_pos c1, e1]
    rw [show (v / 64 + 0xc0 - 0xC0) * 64 + (v % 64 + 0x80 - 0x80) = v by omega, hc]
  rw [if_neg h2]
  by_cases h3 : v ≤ 0xffff
  · rw [if_pos h3]
    have e0 : (UInt8.ofNat (v / 4096 % 0x10 + 0xe0)).toNat = v / 4096 + 0xe0 := by rw [u8 (by omega)]; omega
    have e1 : (UInt8.ofNat (v / 64 % 0x40 + 0x80)).toNat = v / 64 % 64 + 0x80 := u8 (by omega)
    have e2 : (UInt8.ofNat (v % 0x40 + 0x80)).toNat = v % 64 + 0x80 := u8 (by omega)
    have c1 : isCont (UInt8.ofNat (v / 64 % 0x40 + 0x80)) = true := by rw [isCont_iff, e1]; omega
    have c2 : isCont (UInt8.ofNat (v % 0x40 + 0x80)) = true := by rw [isCont_iff, e2]; omega
    simp only [List.cons_append, List.nil_append, decodeOne, e0]
    rw [if_neg (by omega), if_neg (by omega), if_neg (by omega), if_pos (by omega), e1, e2, c1, c2]
    rw [show (v / 4096 + 0xe0 - 0xE0) * 4096 + (v / 64 % 64 + 0x80 - 0x80) * 64 + (v % 64 + 0x80 - 0x80) = v by omega, hc]
    rw [if_pos]
    simp only [Bool.true_and, Bool.and_eq_true, decide_eq_true_eq, Bool.not_eq_true', Bool.and_eq_false_iff, decide_eq_false_iff_not]
    omega
  rw [if_neg h3]
  · have e0 : (UInt8.ofNat (v / 262144 % 0x08 + 0xf0)).toNat = v / 262144 + 0xf0 := by rw [u8 (by omega)]; omega
    have e1 : (UInt8.ofNat (v / 4096 % 0x40 + 0x80)).toNat = v / 4096 % 64 + 0x80 := u8 (by omega)
    have e2 : (UInt8.ofNat (v / 64 % 0x40 + 0x80)).toNat = v / 64 % 64 + 0x80 := u8 (by omega)
    have e3 : (UInt8.ofNat (v % 0x40 + 0x80)).toNat = v % 64 + 0x80 := u8 (by omega)
    have c1 : isCont (UInt8.ofNat (v / 4096 % 0x40 + 0x80)) = true := by rw [isCont_iff, e1]; omega
    have c2 : isCont (UInt8.ofNat (v / 64 % 0x40 + 0x80)) = true := by rw [isCont_iff, e2]; omega
    have c3 : isCont (UInt8.ofNat (v % 0x40 + 0x80)) = true := by rw [isCont_iff, e3]; omega
    simp only [List.cons_append, List.nil_append, decodeOne, e0]
    rw [if_neg (by omega), if_neg (by omega), if_neg (by omega), if_neg (by omega), if_pos (by omega), e1, e2, e3, c1, c2, c3]
    rw [show (v / 262144 + 0xf0 - 0xF0) * 262144 + (v / 4096 % 64 + 0x80 - 0x80) * 4096 + (v / 64 % 64 + 0x80 - 0x80) * 64
      + (v % 64 + 0x80 - 0x80) = v by omega, hc]
    rw [if_pos]
    simp only [Bool.true_and, Bool.and_eq_true, decide_eq_true_eq]
    omega

/-- What is decoded is the encoding of a character. -/
theorem decodeOne_sound {bs r : Bytes} {c : Char} (h : decodeOne bs = some (c, r)) : bs = String.utf8EncodeChar c ++ r := by
  cases bs with
  | nil => cases h
  | cons b0 r0 =>
    unfold decodeOne at h
    dsimp only at h
    have hb0 : b0.toNat < 256 := b0.toNat_lt
    by_cases h1 : b0.toNat ≤ 0x7F
    · rw [if_pos h1] at h
      simp only [Option.some.injEq, Prod.mk.injEq] at h
      obtain ⟨rfl, rfl⟩ := h
      unfold String.utf8EncodeChar
      rw [toNat_ofNat (by omega)]
      dsimp only
      rw [if_pos h1, u8_eq rfl]
      rfl
    rw [if_neg h1] at h
    by_cases h2 : b0.toNat < 0xC2
    · rw [if_pos h2] at h; cases h
    rw [if_neg h2] at h
    by_cases h3 : b0.toNat ≤ 0xDF
    · rw [if_pos h3] at h
      cases r0 with
      | nil => cases h
      | cons b1 r1 =>
        dsimp only at h
        by_cases c1 : isCont b1 = true
        · rw [if_pos c1] at h
          simp only [Option.some.injEq, Prod.mk.injEq] at h
          obtain ⟨rfl, rfl⟩ := h
          rw [isCont_iff] at c1
          unfold String.utf8EncodeChar
          rw [toNat_ofNat (by omega)]
          dsimp only
          rw [if_neg (by omega), if_pos (by omega), u8_eq (b := b0) (by omega), u8_eq (b := b1) (by omega)]
          rfl
        · rw [if_neg c1] at h; cases h
    rw [if_neg h3] at h
    by_cases h4 : b0.toNat ≤ 0xEF
    · rw [if_pos h4] at h
      match r0, h with
      | [], h => cases h
      | [_], h => cases h
      | b1 :: b2 :: r2, h =>
        dsimp only at h
        split at h
        · rename_i hc
          simp only [Bool.and_eq_true, decide_eq_true_eq, Bool.not_eq_true', Bool.and_eq_false_iff, decide_eq_false_iff_not, isCont_iff] at hc
          simp only [Option.some.injEq, Prod.mk.injEq] at h
          obtain ⟨rfl, rfl⟩ := h
          unfold String.utf8EncodeChar
          rw [toNat_ofNat (by omega)]
          dsimp only
          rw [if_neg (by omega), if_neg (by omega), if_pos (by omega), u8_eq (b := b0) (by omega), u8_eq (b := b1) (by omega),
            u8_eq (b := b2) (by omega)]
          rfl
        · cases h
    rw [if_neg h4] at h
    by_cases h5 : b0.toNat ≤ 0xF4
    · rw [if_pos h5] at h
      match r0, h with
      | [], h => cases h
      | [_], h => cases h
      | [_, _], h => cases h
      | b1 :: b2 :: b3 :: r3, h =>
        dsimp only at h
        split at h
        · rename_i hc
          simp only [Bool.and_eq_true, decide_eq_true_eq, isCont_iff] at hc
          simp only [Option.some.injEq, Prod.mk.injEq] at h
          obtain ⟨rfl, rfl⟩ := h
          unfold String.utf8EncodeChar
          rw [toNat_ofNat (by omega)]
          dsimp only
          rw [if_neg (by omega), if_neg (by omega), if_neg (by omega), u8_eq (b := b0) (by omega), u8_eq (b := b1) (by omega),
            u8_eq (b := b2) (by omega), u8_eq (b := b3) (by omega)]
          rfl
        · cases h
    rw [if_neg h5] at h; cases h

theorem encodeChar_cons (c : Char) : ∃ b r, String.utf8EncodeChar c = b :: r := by
  unfold String.utf8EncodeChar
  dsimp only
  repeat' split
  all_goals exact ⟨_, _, rfl⟩

theorem decodeN_encode : ∀ (t : Str) (n : Nat), (utf8 t).length ≤ n → decodeN n (utf8 t) = some t
  | [], n, _ => by cases n <;> rfl
  | c :: t, n, hn => by
    obtain ⟨b, r, hb⟩ := encodeChar_cons c
    have e : utf8 (c :: t) = b :: (r ++ utf8 t) := by
      show String.utf8EncodeChar c ++ utf8 t = _
      rw [hb]; rfl
    have hd := decodeOne_encode c (utf8 t)
    rw [hb] at hd
    rw [e] at hn ⊢
    cases n with
    | zero => simp at hn
    | succ n =>
      unfold decodeN
      rw [show b :: (r ++ utf8 t) = b :: r ++ utf8 t from rfl, hd]
      dsimp only
      rw [decodeN_encode t n (by simp at hn; omega)]
      rfl

theorem decodeN_sound : ∀ (n : Nat) (bs : Bytes) (t : Str), decodeN n bs = some t → bs = utf8 t
  | _, [], t, h => by
    unfold decodeN at h
    cases h; rfl
  | 0, _ :: _, t, h => by cases h
  | n + 1, b :: r, t, h => by
    unfold decodeN at h
    split at h
    · cases h
    · rename_i c rest hd
      rw [Option.map_eq_some_iff] at h
      obtain ⟨t', ht, rfl⟩ := h
      rw [decodeOne_sound hd, decodeN_sound n rest t' ht]
      rfl

/-- A byte order mark is cut off. -/
theorem sig_bom (r : Bytes) : utf8sig (bom ++ r) = decodeN r.length r := rfl

theorem sig_plain {bs : Bytes} (h : ¬ bom <+: bs) : utf8sig bs = decodeN bs.length bs := by
  unfold utf8sig
  split
  · exact absurd ⟨_, rfl⟩ h
  · rfl

theorem utf8_bom : utf8 [bomChar] = bom := by decide +kernel

/-- An encoding begins with the byte order mark exactly if the text begins with its character. -/
theorem bom_prefix {t : Str} : bom <+: utf8 t ↔ [bomChar] <+: t := by
  constructor
  · rintro ⟨r, hr⟩
    cases t with
    | nil => cases hr
    | cons c t =>
      have h1 := decodeOne_encode c (utf8 t)
      have h2 := decodeOne_encode bomChar r
      rw [show String.utf8EncodeChar bomChar = bom by decide +kernel, hr] at h2
      have : String.utf8EncodeChar c ++ utf8 t = utf8 (c :: t) := rfl
      rw [this, h2] at h1
      cases h1
      exact ⟨t, rfl⟩
  · rintro ⟨s, rfl⟩
    exact ⟨utf8 s, by rw [← utf8_bom]; simp [utf8]⟩

end Verif.Decode
