import Verif.Lemmas.SimdPix
/-! # Decoding in vector registers (shared by SSE2 and AVX2) -/

namespace Verif.Simd

open Spec (byte val)

/-- Blue as computed on 16-bit lanes: the sum wraps when it exceeds the signed range, and the
result is then clamped to zero. -/
def vblue (s : Spec.Std) (y cb : Int) : Int :=
  if Spec.blueFix s y cb > 32767 then 0 else Spec.blue s y cb

/-- 16-bit lanes holding bytes in their high half. -/
def Hi (n : Nat) (a : Reg) (v : Nat → UInt8) : Prop := ∀ k, k < n → w16 a k = 256 * (v k).toNat

/-- 16-bit lanes holding integers modulo 2^16. -/
def Lanes16 (n : Nat) (a : Reg) (v : Nat → Int) : Prop := ∀ k, k < n → w16 a k = enc16 (v k)

/-- 16-bit lanes that the saturating pack turns into given bytes. -/
def Px (n : Nat) (a : Reg) (v : Nat → UInt8) : Prop :=
  ∀ k, k < n → UInt8.ofNat (satU8 (s16 (w16 a k))) = v k

theorem w16_set1 (x : Int) (k : Nat) : w16 (set1_epi16 x) k = enc16 x := by
  simp only [set1_epi16, w16_ofW16]
  exact Nat.mod_eq_of_lt (enc16_lt _)

theorem mulhi_lane {a b : Reg} {k : Nat} {v : UInt8} {m : Int} (ha : w16 a k = 256 * v.toNat)
    (hb : w16 b k = enc16 (i32_to_i16 m)) (h0 : 0 ≤ m) (h1 : m < 65536) :
    w16 (mulhi_epu16 a b) k = enc16 (val v * m / 256) := by
  obtain ⟨n, rfl⟩ : ∃ n : Nat, m = n := ⟨m.toNat, by omega⟩
  have hn : enc16 (i32_to_i16 (n : Int)) = n := by unfold enc16 i32_to_i16; omega
  simp only [mulhi_epu16, w16_ofW16, ha, hb, hn]
  have hv := v.toNat_lt
  have e : val v * (n : Int) / 256 = ((v.toNat * n / 256 : Nat) : Int) := by
    unfold Spec.val; push_cast; rfl
  have hle : v.toNat * n ≤ 255 * 65535 := Nat.mul_le_mul (by omega) (by omega)
  rw [e, enc16_nat (by omega)]
  rw [show 256 * v.toNat * n = 256 * (v.toNat * n) by rw [Nat.mul_assoc]]
  omega

theorem bwd_small (c : Colorimetry) :
    let w := Verif.BACKWARD_WEIGHTS c
    (0 ≤ w.xxym ∧ w.xxym < 65536) ∧ (0 ≤ w.rcrm ∧ w.rcrm < 65536) ∧
    (0 ≤ w.gcrm ∧ w.gcrm < 65536) ∧ (0 ≤ w.gcbm ∧ w.gcbm < 65536) ∧
    (0 ≤ w.bcbm ∧ w.bcbm < 65536) := by
  cases c <;> decide

theorem enc16_i16 (m : Int) : enc16 (i32_to_i16 m) = enc16 m := by unfold enc16 i32_to_i16; omega

theorem terms_lanes (c : Colorimetry) {n : Nat} {cb cr : Reg} {u v : Nat → UInt8}
    (hb : Hi n cb u) (hr : Hi n cr v) :
    Lanes16 n (chroma_terms (back c) cb cr).1 (fun k => X86.tr (Verif.BACKWARD_WEIGHTS c) (val (v k))) ∧
    Lanes16 n (chroma_terms (back c) cb cr).2.1
      (fun k => X86.tg (Verif.BACKWARD_WEIGHTS c) (val (u k)) (val (v k))) ∧
    Lanes16 n (chroma_terms (back c) cb cr).2.2
      (fun k => X86.tb (Verif.BACKWARD_WEIGHTS c) (val (u k))) := by
  obtain ⟨-, ⟨a1, a2⟩, ⟨a3, a4⟩, ⟨a5, a6⟩, a7, a8⟩ := bwd_small c
  refine ⟨fun k hk => ?_, fun k hk => ?_, fun k hk => ?_⟩
  · show w16 (sub_epi16 (mulhi_epu16 cr (back c).rcrm) (back c).rn) k = _
    simp only [sub_epi16, w16_ofW16]
    rw [mulhi_lane (b := (back c).rcrm) (hr k hk) (w16_set1 _ k) a1 a2]
    rw [show w16 (back c).rn k = enc16 (Verif.BACKWARD_WEIGHTS c).rn from
      (w16_set1 _ k).trans (enc16_i16 _), enc16_sub]
    rfl
  · show w16 (sub_epi16 (back c).gp (add_epi16 (mulhi_epu16 cb (back c).gcbm)
      (mulhi_epu16 cr (back c).gcrm))) k = _
    simp only [sub_epi16, add_epi16, w16_ofW16]
    rw [mulhi_lane (b := (back c).gcbm) (hb k hk) (w16_set1 _ k) a5 a6,
      mulhi_lane (b := (back c).gcrm) (hr k hk) (w16_set1 _ k) a3 a4,
      enc16_add, show w16 (back c).gp k = enc16 (Verif.BACKWARD_WEIGHTS c).gp from
      (w16_set1 _ k).trans (enc16_i16 _), enc16_sub]
    congr 1
    unfold X86.tg
    omega
  · show w16 (sub_epi16 (mulhi_epu16 cb (back c).bcbm) (back c).bn) k = _
    simp only [sub_epi16, w16_ofW16]
    rw [mulhi_lane (b := (back c).bcbm) (hb k hk) (w16_set1 _ k) a7 a8]
    rw [show w16 (back c).bn k = enc16 (Verif.BACKWARD_WEIGHTS c).bn from
      (w16_set1 _ k).trans (enc16_i16 _), enc16_sub]
    rfl

theorem luma_term (c : Colorimetry) {n : Nat} {a : Reg} {y : Nat → UInt8} (h : Hi n a y) :
    Lanes16 n (mulhi_epu16 a (back c).xxym)
      (fun k => val (y k) * (Verif.BACKWARD_WEIGHTS c).xxym / 256) := by
  obtain ⟨⟨a1, a2⟩, -⟩ := bwd_small c
  exact fun k hk => mulhi_lane (h k hk) (w16_set1 _ k) a1 a2

theorem sum_lane {n : Nat} {a b : Reg} {u v : Nat → Int} (ha : Lanes16 n a u) (hb : Lanes16 n b v)
    {k : Nat} (hk : k < n) :
    s16 (w16 (srai_epi16 (add_epi16 a b) FIX6) k) = s16 (enc16 (u k + v k)) / 64 := by
  have h1 := enc16_lt (u k + v k)
  simp only [srai_epi16, add_epi16, w16_ofW16, ha k hk, hb k hk, enc16_add]
  rw [Nat.mod_eq_of_lt (enc16_lt _), s16_enc16]
  · rfl
  · show -32768 ≤ s16 _ / 64
    unfold s16; split <;> omega
  · show s16 _ / 64 ≤ 32767
    unfold s16; split <;> omega

theorem sat_in {x : Int} (h : -32768 ≤ x) (h' : x ≤ 32767) :
    UInt8.ofNat (satU8 (s16 (enc16 x) / 64)) = byte (Spec.clamp (x / 64)) := by
  rw [s16_enc16 h h']; rfl

theorem sat_over {x : Int} (h : 32767 < x) (h' : x < 65536) :
    UInt8.ofNat (satU8 (s16 (enc16 x) / 64)) = byte 0 := by
  have : s16 (enc16 x) / 64 ≤ 0 := by unfold s16 enc16; split <;> omega
  have e : satU8 (s16 (enc16 x) / 64) = 0 := by unfold satU8; omega
  rw [e]; rfl

theorem red_px (c : Colorimetry) {n : Nat} {a l : Reg} {y v : Nat → UInt8}
    (ha : Lanes16 n a (fun k => X86.tr (Verif.BACKWARD_WEIGHTS c) (val (v k))))
    (hl : Lanes16 n l (fun k => val (y k) * (Verif.BACKWARD_WEIGHTS c).xxym / 256)) :
    Px n (srai_epi16 (add_epi16 a l) FIX6)
      (fun k => byte (Spec.red c.std (val (y k)) (val (v k)))) := by
  intro k hk
  have hy := val_range (y k)
  have hv := val_range (v k)
  have e : X86.tr (Verif.BACKWARD_WEIGHTS c) (val (v k)) +
      val (y k) * (Verif.BACKWARD_WEIGHTS c).xxym / 256 = Spec.redFix c.std (val (y k)) (val (v k)) := by
    cases c <;> simp only [Verif.BACKWARD_WEIGHTS, X86.tr, Spec.redFix, Spec.dec, Colorimetry.std] <;>
      omega
  rw [sum_lane ha hl hk, e]
  apply sat_in <;>
  cases c <;> simp only [Spec.redFix, Spec.dec, Colorimetry.std] <;> omega

theorem green_px (c : Colorimetry) {n : Nat} {a l : Reg} {y u v : Nat → UInt8}
    (ha : Lanes16 n a (fun k => X86.tg (Verif.BACKWARD_WEIGHTS c) (val (u k)) (val (v k))))
    (hl : Lanes16 n l (fun k => val (y k) * (Verif.BACKWARD_WEIGHTS c).xxym / 256)) :
    Px n (srai_epi16 (add_epi16 a l) FIX6)
      (fun k => byte (Spec.green c.std (val (y k)) (val (u k)) (val (v k)))) := by
  intro k hk
  have hy := val_range (y k)
  have hu := val_range (u k)
  have hv := val_range (v k)
  have e : X86.tg (Verif.BACKWARD_WEIGHTS c) (val (u k)) (val (v k)) +
      val (y k) * (Verif.BACKWARD_WEIGHTS c).xxym / 256 =
        Spec.greenFix c.std (val (y k)) (val (u k)) (val (v k)) := by
    cases c <;> simp only [Verif.BACKWARD_WEIGHTS, X86.tg, Spec.greenFix, Spec.dec,
      Colorimetry.std] <;> omega
  rw [sum_lane ha hl hk, e]
  apply sat_in <;>
  cases c <;> simp only [Spec.greenFix, Spec.dec, Colorimetry.std] <;> omega

theorem blue_px (c : Colorimetry) {n : Nat} {a l : Reg} {y u : Nat → UInt8}
    (ha : Lanes16 n a (fun k => X86.tb (Verif.BACKWARD_WEIGHTS c) (val (u k))))
    (hl : Lanes16 n l (fun k => val (y k) * (Verif.BACKWARD_WEIGHTS c).xxym / 256)) :
    Px n (srai_epi16 (add_epi16 a l) FIX6)
      (fun k => byte (vblue c.std (val (y k)) (val (u k)))) := by
  intro k hk
  have hy := val_range (y k)
  have hu := val_range (u k)
  have e : X86.tb (Verif.BACKWARD_WEIGHTS c) (val (u k)) +
      val (y k) * (Verif.BACKWARD_WEIGHTS c).xxym / 256 = Spec.blueFix c.std (val (y k)) (val (u k)) := by
    cases c <;> simp only [Verif.BACKWARD_WEIGHTS, X86.tb, Spec.blueFix, Spec.dec,
      Colorimetry.std] <;> omega
  rw [sum_lane ha hl hk, e]
  show _ = byte (vblue c.std (val (y k)) (val (u k)))
  unfold vblue
  split
  · apply sat_over (by omega)
    cases c <;> simp only [Spec.blueFix, Spec.dec, Colorimetry.std] <;> omega
  · apply sat_in _ (by omega)
    cases c <;> simp only [Spec.blueFix, Spec.dec, Colorimetry.std] <;> omega

end Verif.Simd
