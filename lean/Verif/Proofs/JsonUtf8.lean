import Verif.Proofs.JsonSound
/-! Only UTF-8 is decoded. -/
set_option autoImplicit false
namespace Verif.Json
open Spec

theorem cont_sound {b : UInt8} {x : Nat} (h : cont b = some x) : x < 64 ∧ b = UInt8.ofNat (x + 128) := by
  unfold cont at h
  split at h
  · rename_i hb
    injection h with h
    subst h
    refine ⟨by omega, ?_⟩
    have : b.toNat - 128 + 128 = b.toNat := by omega
    rw [this, UInt8.ofNat_toNat]
  · cases h

theorem ofNat_val {n : Nat} (h : n < 0xD800 ∨ (0xDFFF < n ∧ n < 0x110000)) : (Char.ofNat n).val.toNat = n := by
  have hv : n.isValidChar := h
  simp only [Char.ofNat, hv, dif_pos]
  show (Char.ofNatAux n hv).toNat = n
  simp [Char.ofNatAux, Char.toNat]

theorem decode_sound : ∀ (k : Nat) (b : List UInt8), b.length ≤ k → ∀ {t : List Char}, decodeUtf8 b = some t → b = utf8 t := by
  intro k
  induction k with
  | zero =>
    intro b hb t h
    obtain rfl : b = [] := List.length_eq_zero_iff.1 (by omega)
    rw [decodeUtf8.eq_def] at h
    injection h with h
    subst h; rfl
  | succ k ih =>
    intro b hb t h
    rw [decodeUtf8.eq_def] at h
    split at h
    · injection h with h; subst h; rfl
    rename_i b rest
    have eb : UInt8.ofNat b.toNat = b := UInt8.ofNat_toNat
    split at h
    · rename_i h1
      rw [Option.map_eq_some_iff] at h
      obtain ⟨s, hs, rfl⟩ := h
      have e := ih rest (by simp at hb; omega) hs
      have ev := ofNat_val (n := b.toNat) (by omega)
      show _ = String.utf8EncodeChar _ ++ utf8 s
      unfold String.utf8EncodeChar
      simp only [ev]
      rw [if_pos (by omega), eb, e]; rfl
    split at h
    · cases h
    split at h
    · rename_i h0 h1 h2
      split at h
      · rename_i c rest
        simp only [Option.bind_eq_bind, Option.bind_eq_some_iff, Option.map_eq_some_iff] at h
        obtain ⟨x, hx, s, hs, rfl⟩ := h
        have e := ih rest (by simp at hb; omega) hs
        obtain ⟨hx1, rfl⟩ := cont_sound hx
        generalize hn : (b.toNat - 0xC0) * 64 + x = n
        have ev := ofNat_val (n := n) (by omega)
        show _ = String.utf8EncodeChar _ ++ utf8 s
        unfold String.utf8EncodeChar
        simp only [ev]
        rw [if_neg (by omega), if_pos (by omega)]
        have e1 : n / 64 % 32 + 192 = b.toNat := by omega
        have e2 : n % 64 = x := by omega
        rw [e1, e2, eb, e]; rfl
      · cases h
    split at h
    · rename_i h0 h1 h2 h3
      split at h
      · rename_i c d rest
        simp only [Option.bind_eq_bind, Option.bind_eq_some_iff] at h
        obtain ⟨x, hx, y, hy, h⟩ := h
        obtain ⟨hx1, rfl⟩ := cont_sound hx
        obtain ⟨hy1, rfl⟩ := cont_sound hy
        split at h
        · cases h
        rename_i hn0
        rw [Option.map_eq_some_iff] at h
        obtain ⟨s, hs, rfl⟩ := h
        have e := ih rest (by simp at hb; omega) hs
        generalize hn : ((b.toNat - 0xE0) * 64 + x) * 64 + y = n at hn0
        have ev := ofNat_val (n := n) (by omega)
        show _ = String.utf8EncodeChar _ ++ utf8 s
        unfold String.utf8EncodeChar
        simp only [ev]
        rw [if_neg (by omega), if_neg (by omega), if_pos (by omega)]
        have e1 : n / 4096 % 16 + 224 = b.toNat := by omega
        have e2 : n / 64 % 64 = x := by omega
        have e3 : n % 64 = y := by omega
        rw [e1, e2, e3, eb, e]; rfl
      · cases h
    split at h
    · rename_i h0 h1 h2 h3 h4
      split at h
      · rename_i c d f rest
        simp only [Option.bind_eq_bind, Option.bind_eq_some_iff] at h
        obtain ⟨x, hx, y, hy, z, hz, h⟩ := h
        obtain ⟨hx1, rfl⟩ := cont_sound hx
        obtain ⟨hy1, rfl⟩ := cont_sound hy
        obtain ⟨hz1, rfl⟩ := cont_sound hz
        split at h
        · cases h
        rename_i hn0
        rw [Option.map_eq_some_iff] at h
        obtain ⟨s, hs, rfl⟩ := h
        have e := ih rest (by simp at hb; omega) hs
        generalize hn : (((b.toNat - 0xF0) * 64 + x) * 64 + y) * 64 + z = n at hn0
        have ev := ofNat_val (n := n) (by omega)
        show _ = String.utf8EncodeChar _ ++ utf8 s
        unfold String.utf8EncodeChar
        simp only [ev]
        rw [if_neg (by omega), if_neg (by omega), if_neg (by omega)]
        have e1 : n / 262144 % 8 + 240 = b.toNat := by omega
        have e2 : n / 4096 % 64 = x := by omega
        have e3 : n / 64 % 64 = y := by omega
        have e4 : n % 64 = z := by omega
        rw [e1, e2, e3, e4, eb, e]; rfl
      · cases h
    · cases h

theorem decode_iff (b : List UInt8) (t : List Char) : decodeUtf8 b = some t ↔ b = utf8 t :=
  ⟨fun h => decode_sound b.length b (Nat.le_refl _) h, fun h => by rw [h]; exact decode_utf8 t⟩

theorem ofBytes_sound {float : List Char → JVal} {n : Nat} {b : List UInt8} {f : List (String × JVal)} (h : ofBytes float n b = .json f) :
    ∃ l t, b = utf8 t ∧ Document true float n l t ∧ f = dictOf [] l := by
  unfold ofBytes at h
  split at h
  · cases h
  split at h
  · cases h
  split at h
  · rename_i g hg
    injection h with h
    subst h
    rw [Option.bind_eq_some_iff] at hg
    obtain ⟨t, ht, hl⟩ := hg
    obtain ⟨l, hl, e⟩ := loads_sound hl
    exact ⟨l, t, (decode_iff b t).1 ht, hl, e⟩
  · cases h

end Verif.Json
