import Verif.Lemmas.Worst
/-!
# Worst encoding errors of 4:2:0 chroma, by exhaustion

As `Verif.Lemmas.Worst`, for sums of four values instead of single ones.
-/

namespace Verif.WorstBlock
open Worst (allB allB_spec)

/-- `f` holds for all `P` and `Q` in a box that differ by at most 1020. -/
noncomputable def boxOk (p n q m : Nat) (f : Nat → Nat → Bool) : Bool :=
  allB p n fun P => allB q m fun Q =>
    Bool.rec true (Bool.rec true (f P Q) (Nat.ble P (Nat.add Q (nat_lit 1020))))
      (Nat.ble Q (Nat.add P (nat_lit 1020)))

theorem boxOk_spec {p n q m : Nat} {f : Nat → Nat → Bool} (h : boxOk p n q m f = true) {P Q : Nat}
    (h1 : p ≤ P) (h2 : P < p + n) (h3 : q ≤ Q) (h4 : Q < q + m) (h5 : P ≤ Q + 1020)
    (h6 : Q ≤ P + 1020) : f P Q = true := by
  have := allB_spec (allB_spec h P h1 h2) Q h3 h4
  rw [show Nat.ble Q (Nat.add P 1020) = true from Nat.ble_eq_true_of_le h6] at this
  have this : (Bool.rec true (f P Q) (Nat.ble P (Nat.add Q 1020)) : Bool) = true := this
  rw [show Nat.ble P (Nat.add Q 1020) = true from Nat.ble_eq_true_of_le h5] at this
  exact this

/-- `l * ((x P + y Q + h) mod 262144) + a P + b Q`. -/
noncomputable def form (x y h l a b P Q : Nat) : Nat :=
  Nat.add (Nat.mul l (Nat.mod (Nat.add (Nat.add (Nat.mul x P) (Nat.mul y Q)) h) (nat_lit 262144)))
    (Nat.add (Nat.mul a P) (Nat.mul b Q))

noncomputable def upperOk (x y h l a b a' b' k k' P Q : Nat) : Bool :=
  Nat.ble (Nat.add k (form x y h l a b P Q)) (Nat.add k' (Nat.add (Nat.mul a' P) (Nat.mul b' Q)))

noncomputable def lowerOk (x y h l a b a' b' k k' P Q : Nat) : Bool :=
  Nat.ble (Nat.add k' (Nat.add (Nat.mul a' P) (Nat.mul b' Q))) (Nat.add k (form x y h l a b P Q))

theorem upper_of {p n q m x y h l a b a' b' k k' P Q : Nat}
    (hc : boxOk p n q m (upperOk x y h l a b a' b' k k') = true)
    (h1 : p ≤ P) (h2 : P < p + n) (h3 : q ≤ Q) (h4 : Q < q + m) (h5 : P ≤ Q + 1020)
    (h6 : Q ≤ P + 1020) :
    k + (l * ((x * P + y * Q + h) % 262144) + (a * P + b * Q)) ≤ k' + (a' * P + b' * Q) :=
  Nat.le_of_ble_eq_true (boxOk_spec hc h1 h2 h3 h4 h5 h6)

theorem lower_of {p n q m x y h l a b a' b' k k' P Q : Nat}
    (hc : boxOk p n q m (lowerOk x y h l a b a' b' k k') = true)
    (h1 : p ≤ P) (h2 : P < p + n) (h3 : q ≤ Q) (h4 : Q < q + m) (h5 : P ≤ Q + 1020)
    (h6 : Q ≤ P + 1020) :
    k' + (a' * P + b' * Q) ≤ k + (l * ((x * P + y * Q + h) % 262144) + (a * P + b * Q)) :=
  Nat.le_of_ble_eq_true (boxOk_spec hc h1 h2 h3 h4 h5 h6)

theorem u601b_upper :
    boxOk 1569 472 1980 61 (upperOk 252430 243073 131643 112965 7226 56123 0 0 0 29738810599) = true := by
  decide +kernel

theorem u601b_lower :
    boxOk 0 456 0 59 (lowerOk 252430 243073 131643 112965 7226 56123 0 0 0 3292391) = true := by
  decide +kernel

theorem u601b_worst {p q : Int} (h1 : -1020 ≤ p ∧ p ≤ 1020) (h2 : -1020 ≤ q ∧ q ≤ 1020)
    (h3 : -1020 ≤ p - q ∧ p - q ≤ 1020) :
    -56716 ≤ -4186 * p - 8218 * q - 112965 * ((-9714 * p - 19071 * q + 131071) / 262144) ∧
    -4186 * p - 8218 * q - 112965 * ((-9714 * p - 19071 * q + 131071) / 262144) ≤ 56716 := by
  obtain ⟨P, hP⟩ := Int.eq_ofNat_of_zero_le (by omega : 0 ≤ p + 1020)
  obtain ⟨Q, hQ⟩ := Int.eq_ofNat_of_zero_le (by omega : 0 ≤ q + 1020)
  have e : ((((252430 * P + 243073 * Q + 131643) / 262144 : Nat)) : Int) =
      (-9714 * p - 19071 * q + 131071) / 262144 + P + Q - 112 := by omega
  constructor
  · by_cases hb : 0 ≤ P ∧ P < 0 + 456 ∧ 0 ≤ Q ∧ Q < 0 + 59
    · have l := lower_of u601b_lower hb.1 hb.2.1 hb.2.2.1 hb.2.2.2 (by omega) (by omega)
      omega
    · omega
  · by_cases hb : 1569 ≤ P ∧ P < 1569 + 472 ∧ 1980 ≤ Q ∧ Q < 1980 + 61
    · have u := upper_of u601b_upper hb.1 hb.2.1 hb.2.2.1 hb.2.2.2 (by omega) (by omega)
      omega
    · omega

theorem v601b_upper :
    boxOk 0 124 0 186 (upperOk 28785 238041 74023 178755 0 0 100243 67019 0 46846968629) = true := by
  decide +kernel

theorem v601b_lower :
    boxOk 1919 122 1858 183 (lowerOk 28785 238041 74023 178755 0 0 100243 67019 328989899 0) = true := by
  decide +kernel

theorem v601b_worst {p q : Int} (h1 : -1020 ≤ p ∧ p ≤ 1020) (h2 : -1020 ≤ q ∧ q ≤ 1020)
    (h3 : -1020 ≤ p - q ∧ p - q ≤ 1020) :
    -89981 ≤ 19628 * p - 16436 * q - 178755 * ((28785 * p - 24103 * q + 131071) / 262144) ∧
    19628 * p - 16436 * q - 178755 * ((28785 * p - 24103 * q + 131071) / 262144) ≤ 89981 := by
  obtain ⟨P, hP⟩ := Int.eq_ofNat_of_zero_le (by omega : 0 ≤ p + 1020)
  obtain ⟨Q, hQ⟩ := Int.eq_ofNat_of_zero_le (by omega : 0 ≤ q + 1020)
  have e : ((((28785 * P + 238041 * Q + 74023) / 262144 : Nat)) : Int) =
      (28785 * p - 24103 * q + 131071) / 262144 + Q + 18 := by omega
  constructor
  · by_cases hb : 1919 ≤ P ∧ P < 1919 + 122 ∧ 1858 ≤ Q ∧ Q < 1858 + 183
    · have l := lower_of v601b_lower hb.1 hb.2.1 hb.2.2.1 hb.2.2.2 (by omega) (by omega)
      omega
    · omega
  · by_cases hb : 0 ≤ P ∧ P < 0 + 124 ∧ 0 ≤ Q ∧ Q < 0 + 186
    · have u := upper_of v601b_upper hb.1 hb.2.1 hb.2.2.1 hb.2.2.2 (by omega) (by omega)
      omega
    · omega

theorem u709b_upper :
    boxOk 1914 127 1963 78 (upperOk 255548 239955 131643 1182945 251204 412173 0 0 0 311422138843) = true := by
  decide +kernel

theorem u709b_lower :
    boxOk 0 123 0 75 (lowerOk 255548 239955 131643 1182945 251204 412173 0 0 0 30718427) = true := by
  decide +kernel

theorem u709b_worst {p q : Int} (h1 : -1020 ≤ p ∧ p ≤ 1020) (h2 : -1020 ≤ q ∧ q ≤ 1020)
    (h3 : -1020 ≤ p - q ∧ p - q ≤ 1020) :
    -593932 ≤ -29764 * p - 100128 * q - 1182945 * ((-6596 * p - 22189 * q + 131071) / 262144) ∧
    -29764 * p - 100128 * q - 1182945 * ((-6596 * p - 22189 * q + 131071) / 262144) ≤ 593932 := by
  obtain ⟨P, hP⟩ := Int.eq_ofNat_of_zero_le (by omega : 0 ≤ p + 1020)
  obtain ⟨Q, hQ⟩ := Int.eq_ofNat_of_zero_le (by omega : 0 ≤ q + 1020)
  have e : ((((255548 * P + 239955 * Q + 131643) / 262144 : Nat)) : Int) =
      (-6596 * p - 22189 * q + 131071) / 262144 + P + Q - 112 := by omega
  constructor
  · by_cases hb : 0 ≤ P ∧ P < 0 + 123 ∧ 0 ≤ Q ∧ Q < 0 + 75
    · have l := lower_of u709b_lower hb.1 hb.2.1 hb.2.2.1 hb.2.2.2 (by omega) (by omega)
      omega
    · omega
  · by_cases hb : 1914 ≤ P ∧ P < 1914 + 127 ∧ 1963 ≤ Q ∧ Q < 1963 + 78
    · have u := upper_of u709b_upper hb.1 hb.2.1 hb.2.2.1 hb.2.2.2 (by omega) (by omega)
      omega
    · omega

theorem v709b_upper :
    boxOk 0 43 0 325 (upperOk 28785 235999 59711 1003935 0 0 562991 73857 0 263150554401) = true := by
  decide +kernel

theorem v709b_lower :
    boxOk 2000 41 1729 312 (lowerOk 28785 235999 59711 1003935 0 0 562991 73857 1276195551 0) = true := by
  decide +kernel

theorem v709b_worst {p q : Int} (h1 : -1020 ≤ p ∧ p ≤ 1020) (h2 : -1020 ≤ q ∧ q ≤ 1020)
    (h3 : -1020 ≤ p - q ∧ p - q ≤ 1020) :
    -504354 ≤ 110236 * p - 100128 * q - 1003935 * ((28785 * p - 26145 * q + 131071) / 262144) ∧
    110236 * p - 100128 * q - 1003935 * ((28785 * p - 26145 * q + 131071) / 262144) ≤ 504354 := by
  obtain ⟨P, hP⟩ := Int.eq_ofNat_of_zero_le (by omega : 0 ≤ p + 1020)
  obtain ⟨Q, hQ⟩ := Int.eq_ofNat_of_zero_le (by omega : 0 ≤ q + 1020)
  have e : ((((28785 * P + 235999 * Q + 59711) / 262144 : Nat)) : Int) =
      (28785 * p - 26145 * q + 131071) / 262144 + Q + 10 := by omega
  constructor
  · by_cases hb : 2000 ≤ P ∧ P < 2000 + 41 ∧ 1729 ≤ Q ∧ Q < 1729 + 312
    · have l := lower_of v709b_lower hb.1 hb.2.1 hb.2.2.1 hb.2.2.2 (by omega) (by omega)
      omega
    · omega
  · by_cases hb : 0 ≤ P ∧ P < 0 + 43 ∧ 0 ≤ Q ∧ Q < 0 + 325
    · have u := upper_of v709b_upper hb.1 hb.2.1 hb.2.2.1 hb.2.2.2 (by omega) (by omega)
      omega
    · omega

theorem u601FRb_upper :
    boxOk 0 213 0 81 (upperOk 251086 240435 261123 7088 0 0 1952 5136 0 1857655568) = true := by
  decide +kernel

theorem u601FRb_lower :
    boxOk 1832 209 1961 80 (lowerOk 251086 240435 261123 7088 0 0 1952 5136 14052592 0) = true := by
  decide +kernel

theorem u601FRb_worst {p q : Int} (h1 : -1020 ≤ p ∧ p ≤ 1020) (h2 : -1020 ≤ q ∧ q ≤ 1020)
    (h3 : -1020 ≤ p - q ∧ p - q ≤ 1020) :
    -3570 ≤ -299 * p - 587 * q - 7088 * ((-11058 * p - 21709 * q + 131071) / 262144) ∧
    -299 * p - 587 * q - 7088 * ((-11058 * p - 21709 * q + 131071) / 262144) ≤ 3570 := by
  obtain ⟨P, hP⟩ := Int.eq_ofNat_of_zero_le (by omega : 0 ≤ p + 1020)
  obtain ⟨Q, hQ⟩ := Int.eq_ofNat_of_zero_le (by omega : 0 ≤ q + 1020)
  have e : ((((251086 * P + 240435 * Q + 261123) / 262144 : Nat)) : Int) =
      (-11058 * p - 21709 * q + 131071) / 262144 + P + Q - 127 := by omega
  constructor
  · by_cases hb : 1832 ≤ P ∧ P < 1832 + 209 ∧ 1961 ≤ Q ∧ Q < 1961 + 80
    · have l := lower_of u601FRb_lower hb.1 hb.2.1 hb.2.2.1 hb.2.2.2 (by omega) (by omega)
      omega
    · omega
  · by_cases hb : 0 ≤ P ∧ P < 0 + 213 ∧ 0 ≤ Q ∧ Q < 0 + 81
    · have u := upper_of u601FRb_upper hb.1 hb.2.1 hb.2.2.1 hb.2.2.2 (by omega) (by omega)
      omega
    · omega

theorem v601FRb_upper :
    boxOk 1997 44 977 393 (upperOk 32767 234705 201535 5608 5608 0 0 616 0 1480694808) = true := by
  decide +kernel

theorem v601FRb_lower :
    boxOk 0 42 680 382 (lowerOk 32767 234705 201535 5608 5608 0 0 616 418792 0) = true := by
  decide +kernel

theorem v601FRb_worst {p q : Int} (h1 : -1020 ≤ p ∧ p ≤ 1020) (h2 : -1020 ≤ q ∧ q ≤ 1020)
    (h3 : -1020 ≤ p - q ∧ p - q ≤ 1020) :
    -2825 ≤ 701 * p - 587 * q - 5608 * ((32767 * p - 27439 * q + 131071) / 262144) ∧
    701 * p - 587 * q - 5608 * ((32767 * p - 27439 * q + 131071) / 262144) ≤ 2825 := by
  obtain ⟨P, hP⟩ := Int.eq_ofNat_of_zero_le (by omega : 0 ≤ p + 1020)
  obtain ⟨Q, hQ⟩ := Int.eq_ofNat_of_zero_le (by omega : 0 ≤ q + 1020)
  have e : ((((32767 * P + 234705 * Q + 201535) / 262144 : Nat)) : Int) =
      (32767 * p - 27439 * q + 131071) / 262144 + Q + 21 := by omega
  constructor
  · by_cases hb : 0 ≤ P ∧ P < 0 + 42 ∧ 680 ≤ Q ∧ Q < 680 + 382
    · have l := lower_of v601FRb_lower hb.1 hb.2.1 hb.2.2.1 hb.2.2.2 (by omega) (by omega)
      omega
    · omega
  · by_cases hb : 1997 ≤ P ∧ P < 1997 + 44 ∧ 977 ≤ Q ∧ Q < 977 + 393
    · have u := upper_of v601FRb_upper hb.1 hb.2.1 hb.2.2.1 hb.2.2.2 (by omega) (by omega)
      omega
    · omega

theorem u709FRb_upper :
    boxOk 0 313 0 464 (upperOk 254636 236885 261123 37112 0 0 22176 14936 0 9721729768) = true := by
  decide +kernel

theorem u709FRb_lower :
    boxOk 1730 311 1580 461 (lowerOk 254636 236885 261123 37112 0 0 22176 14936 68824344 0) = true := by
  decide +kernel

theorem u709FRb_worst {p q : Int} (h1 : -1020 ≤ p ∧ p ≤ 1020) (h2 : -1020 ≤ q ∧ q ≤ 1020)
    (h3 : -1020 ≤ p - q ∧ p - q ≤ 1020) :
    -18674 ≤ -1063 * p - 3576 * q - 37112 * ((-7508 * p - 25259 * q + 131071) / 262144) ∧
    -1063 * p - 3576 * q - 37112 * ((-7508 * p - 25259 * q + 131071) / 262144) ≤ 18674 := by
  obtain ⟨P, hP⟩ := Int.eq_ofNat_of_zero_le (by omega : 0 ≤ p + 1020)
  obtain ⟨Q, hQ⟩ := Int.eq_ofNat_of_zero_le (by omega : 0 ≤ q + 1020)
  have e : ((((254636 * P + 236885 * Q + 261123) / 262144 : Nat)) : Int) =
      (-7508 * p - 25259 * q + 131071) / 262144 + P + Q - 127 := by omega
  constructor
  · by_cases hb : 1730 ≤ P ∧ P < 1730 + 311 ∧ 1580 ≤ Q ∧ Q < 1580 + 461
    · have l := lower_of u709FRb_lower hb.1 hb.2.1 hb.2.2.1 hb.2.2.2 (by omega) (by omega)
      omega
    · omega
  · by_cases hb : 0 ≤ P ∧ P < 0 + 313 ∧ 0 ≤ Q ∧ Q < 0 + 464
    · have u := upper_of u709FRb_upper hb.1 hb.2.1 hb.2.2.1 hb.2.2.2 (by omega) (by omega)
      omega
    · omega

theorem v709FRb_upper :
    boxOk 1942 99 922 271 (upperOk 32767 232381 212719 31496 31496 0 0 11496 0 8307002488) = true := by
  decide +kernel

theorem v709FRb_lower :
    boxOk 0 98 851 267 (lowerOk 32767 232381 212719 31496 31496 0 0 11496 9778056 0) = true := by
  decide +kernel

theorem v709FRb_worst {p q : Int} (h1 : -1020 ≤ p ∧ p ≤ 1020) (h2 : -1020 ≤ q ∧ q ≤ 1020)
    (h3 : -1020 ≤ p - q ∧ p - q ≤ 1020) :
    -15863 ≤ 3937 * p - 3576 * q - 31496 * ((32767 * p - 29763 * q + 131071) / 262144) ∧
    3937 * p - 3576 * q - 31496 * ((32767 * p - 29763 * q + 131071) / 262144) ≤ 15863 := by
  obtain ⟨P, hP⟩ := Int.eq_ofNat_of_zero_le (by omega : 0 ≤ p + 1020)
  obtain ⟨Q, hQ⟩ := Int.eq_ofNat_of_zero_le (by omega : 0 ≤ q + 1020)
  have e : ((((32767 * P + 232381 * Q + 212719) / 262144 : Nat)) : Int) =
      (32767 * p - 29763 * q + 131071) / 262144 + Q + 12 := by omega
  constructor
  · by_cases hb : 0 ≤ P ∧ P < 0 + 98 ∧ 851 ≤ Q ∧ Q < 851 + 267
    · have l := lower_of v709FRb_lower hb.1 hb.2.1 hb.2.2.1 hb.2.2.2 (by omega) (by omega)
      omega
    · omega
  · by_cases hb : 1942 ≤ P ∧ P < 1942 + 99 ∧ 922 ≤ Q ∧ Q < 922 + 271
    · have u := upper_of v709FRb_upper hb.1 hb.2.1 hb.2.2.1 hb.2.2.2 (by omega) (by omega)
      omega
    · omega

end Verif.WorstBlock
