import Verif.Lemmas.Worst
/-!
# Worst encoding errors of limited-range luma, by exhaustion
-/

namespace Verif.Worst

/-- `f` holds in a box. -/
noncomputable def cubeOk (r n g m b k : Nat) (f : Nat → Nat → Nat → Bool) : Bool :=
  allB r n fun r => allB g m fun g => allB b k fun b => f r g b

/-- `k' + a'·(r,g,b) ≤ k + l * ((x·(r,g,b) + h) mod 65536) + a·(r,g,b)`. -/
noncomputable def lowerOk3 (x y z h l a1 a2 a3 b1 b2 b3 k k' r g b : Nat) : Bool :=
  Nat.ble (Nat.add k' (Nat.add (Nat.add (Nat.mul b1 r) (Nat.mul b2 g)) (Nat.mul b3 b)))
    (Nat.add k (Nat.add
      (Nat.mul l (Nat.mod (Nat.add (Nat.add (Nat.add (Nat.mul x r) (Nat.mul y g)) (Nat.mul z b)) h)
        (nat_lit 65536)))
      (Nat.add (Nat.add (Nat.mul a1 r) (Nat.mul a2 g)) (Nat.mul a3 b))))

theorem lower3_of {r0 n g0 m b0 j x y z h l a1 a2 a3 b1 b2 b3 k k' r g b : Nat}
    (hc : cubeOk r0 n g0 m b0 j (lowerOk3 x y z h l a1 a2 a3 b1 b2 b3 k k') = true)
    (h1 : r0 ≤ r) (h2 : r < r0 + n) (h3 : g0 ≤ g) (h4 : g < g0 + m) (h5 : b0 ≤ b)
    (h6 : b < b0 + j) :
    k' + (b1 * r + b2 * g + b3 * b) ≤
      k + (l * ((x * r + y * g + z * b + h) % 65536) + (a1 * r + a2 * g + a3 * b)) :=
  Nat.le_of_ble_eq_true
    (allB_spec (allB_spec (allB_spec hc r h1 h2) g h3 h4) b h5 h6)

theorem y601_lower : cubeOk 166 90 225 31 0 32
    (lowerOk3 16829 33039 6416 32768 85000 0 0 30592 10728 31864 0 9895936 0) = true := by
  decide +kernel

theorem y601_worst {r g b : Int} (h1 : 0 ≤ r ∧ r ≤ 255) (h2 : 0 ≤ g ∧ g ≤ 255)
    (h3 : 0 ≤ b ∧ b ≤ 255) :
    -42651 ≤ 21827 * r + 42851 * g + 8322 * b - 85000 * ((16829 * r + 33039 * g + 6416 * b + 32768) / 65536) ∧
    21827 * r + 42851 * g + 8322 * b - 85000 * ((16829 * r + 33039 * g + 6416 * b + 32768) / 65536) ≤ 42651 := by
  obtain ⟨R, rfl⟩ := Int.eq_ofNat_of_zero_le h1.1
  obtain ⟨G, rfl⟩ := Int.eq_ofNat_of_zero_le h2.1
  obtain ⟨B, rfl⟩ := Int.eq_ofNat_of_zero_le h3.1
  have e : ((((16829 * R + 33039 * G + 6416 * B + 32768) / 65536 : Nat)) : Int) =
      (16829 * (R : Int) + 33039 * G + 6416 * B + 32768) / 65536 := by omega
  constructor
  · by_cases hb : 166 ≤ R ∧ R < 166 + 90 ∧ 225 ≤ G ∧ G < 225 + 31 ∧
        0 ≤ B ∧ B < 0 + 32
    · have l := lower3_of y601_lower hb.1 hb.2.1 hb.2.2.1 hb.2.2.2.1 hb.2.2.2.2.1 hb.2.2.2.2.2
      omega
    · omega
  · omega

theorem y709_lower : cubeOk 96 160 0 39 229 27
    (lowerOk3 11966 40254 4064 32768 425000 0 91728 0 21936 0 129792 35192832 0) = true := by
  decide +kernel

theorem y709_worst {r g b : Int} (h1 : 0 ≤ r ∧ r ≤ 255) (h2 : 0 ≤ g ∧ g ≤ 255)
    (h3 : 0 ≤ b ∧ b ≤ 255) :
    -213037 ≤ 77599 * r + 261048 * g + 26353 * b - 425000 * ((11966 * r + 40254 * g + 4064 * b + 32768) / 65536) ∧
    77599 * r + 261048 * g + 26353 * b - 425000 * ((11966 * r + 40254 * g + 4064 * b + 32768) / 65536) ≤ 213037 := by
  obtain ⟨R, rfl⟩ := Int.eq_ofNat_of_zero_le h1.1
  obtain ⟨G, rfl⟩ := Int.eq_ofNat_of_zero_le h2.1
  obtain ⟨B, rfl⟩ := Int.eq_ofNat_of_zero_le h3.1
  have e : ((((11966 * R + 40254 * G + 4064 * B + 32768) / 65536 : Nat)) : Int) =
      (11966 * (R : Int) + 40254 * G + 4064 * B + 32768) / 65536 := by omega
  constructor
  · by_cases hb : 96 ≤ R ∧ R < 96 + 160 ∧ 0 ≤ G ∧ G < 0 + 39 ∧
        229 ≤ B ∧ B < 229 + 27
    · have l := lower3_of y709_lower hb.1 hb.2.1 hb.2.2.1 hb.2.2.2.1 hb.2.2.2.2.1 hb.2.2.2.2.2
      omega
    · omega
  · omega

end Verif.Worst
