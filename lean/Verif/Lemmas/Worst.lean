/-!
# Worst encoding errors, by exhaustion

The error of a sample whose coefficients add up to 0 (chroma) or 65536 (full-range luma) depends on
the differences `r - b` and `g - b` only. The checks run over all differences for which the linear
part of the error is large, in the kernel; they are written with bare operations on natural numbers
because that is what the kernel computes fast.
-/

namespace Verif.Worst

/-- `f` holds for the `n` numbers from `a` on. -/
noncomputable def allB (a n : Nat) (f : Nat → Bool) : Bool :=
  Nat.rec true (fun n ih => Bool.rec false ih (f (Nat.add a n))) n

/-- `f` holds for all `P` and `Q` in a box that differ by at most 255. -/
noncomputable def boxOk (p n q m : Nat) (f : Nat → Nat → Bool) : Bool :=
  allB p n fun P => allB q m fun Q =>
    Bool.rec true (Bool.rec true (f P Q) (Nat.ble P (Nat.add Q (nat_lit 255))))
      (Nat.ble Q (Nat.add P (nat_lit 255)))

theorem allB_spec {a n : Nat} {f : Nat → Bool} (h : allB a n f = true) :
    ∀ k, a ≤ k → k < a + n → f k = true := by
  induction n with
  | zero => intro k _ _; omega
  | succ n ih =>
    have h : (Bool.rec false (allB a n f) (f (a + n)) : Bool) = true := h
    cases e : f (a + n) with
    | false => rw [e] at h; cases h
    | true =>
      rw [e] at h
      intro k hk hk'
      by_cases hn : k = a + n
      · rw [hn, e]
      · exact ih h k hk (by omega)

theorem boxOk_spec {p n q m : Nat} {f : Nat → Nat → Bool} (h : boxOk p n q m f = true) {P Q : Nat}
    (h1 : p ≤ P) (h2 : P < p + n) (h3 : q ≤ Q) (h4 : Q < q + m) (h5 : P ≤ Q + 255)
    (h6 : Q ≤ P + 255) : f P Q = true := by
  have := allB_spec (allB_spec h P h1 h2) Q h3 h4
  rw [show Nat.ble Q (Nat.add P 255) = true from Nat.ble_eq_true_of_le h6] at this
  have this : (Bool.rec true (f P Q) (Nat.ble P (Nat.add Q 255)) : Bool) = true := this
  rw [show Nat.ble P (Nat.add Q 255) = true from Nat.ble_eq_true_of_le h5] at this
  exact this

/-- `l * ((x P + y Q + h) mod 65536) + a P + b Q`. -/
noncomputable def form (x y h l a b P Q : Nat) : Nat :=
  Nat.add (Nat.mul l (Nat.mod (Nat.add (Nat.add (Nat.mul x P) (Nat.mul y Q)) h) (nat_lit 65536)))
    (Nat.add (Nat.mul a P) (Nat.mul b Q))

noncomputable def upperOk (x y h l a b a' b' k k' P Q : Nat) : Bool :=
  Nat.ble (Nat.add k (form x y h l a b P Q)) (Nat.add k' (Nat.add (Nat.mul a' P) (Nat.mul b' Q)))

noncomputable def lowerOk (x y h l a b a' b' k k' P Q : Nat) : Bool :=
  Nat.ble (Nat.add k' (Nat.add (Nat.mul a' P) (Nat.mul b' Q))) (Nat.add k (form x y h l a b P Q))

theorem upper_of {p n q m x y h l a b a' b' k k' P Q : Nat}
    (hc : boxOk p n q m (upperOk x y h l a b a' b' k k') = true)
    (h1 : p ≤ P) (h2 : P < p + n) (h3 : q ≤ Q) (h4 : Q < q + m) (h5 : P ≤ Q + 255)
    (h6 : Q ≤ P + 255) :
    k + (l * ((x * P + y * Q + h) % 65536) + (a * P + b * Q)) ≤ k' + (a' * P + b' * Q) :=
  Nat.le_of_ble_eq_true (boxOk_spec hc h1 h2 h3 h4 h5 h6)

theorem lower_of {p n q m x y h l a b a' b' k k' P Q : Nat}
    (hc : boxOk p n q m (lowerOk x y h l a b a' b' k k') = true)
    (h1 : p ≤ P) (h2 : P < p + n) (h3 : q ≤ Q) (h4 : Q < q + m) (h5 : P ≤ Q + 255)
    (h6 : Q ≤ P + 255) :
    k' + (a' * P + b' * Q) ≤ k + (l * ((x * P + y * Q + h) % 65536) + (a * P + b * Q)) :=
  Nat.le_of_ble_eq_true (boxOk_spec hc h1 h2 h3 h4 h5 h6)

theorem u601_upper :
    boxOk 338 173 488 23 (upperOk 55822 46465 32910 112965 7226 56123 0 0 0 7434224710) = true := by
  decide +kernel

theorem u601_lower :
    boxOk 0 157 0 21 (lowerOk 55822 46465 32910 112965 7226 56123 0 0 0 1131590) = true := by
  decide +kernel

theorem u601_worst {p q : Int} (h1 : -255 ≤ p ∧ p ≤ 255) (h2 : -255 ≤ q ∧ q ≤ 255)
    (h3 : -255 ≤ p - q ∧ p - q ≤ 255) :
    -56710 ≤ -16744 * p - 32872 * q - 112965 * ((-9714 * p - 19071 * q + 32767) / 65536) ∧
    -16744 * p - 32872 * q - 112965 * ((-9714 * p - 19071 * q + 32767) / 65536) ≤ 56710 := by
  obtain ⟨P, hP⟩ := Int.eq_ofNat_of_zero_le (by omega : 0 ≤ p + 255)
  obtain ⟨Q, hQ⟩ := Int.eq_ofNat_of_zero_le (by omega : 0 ≤ q + 255)
  have e : ((((55822 * P + 46465 * Q + 32910) / 65536 : Nat)) : Int) = (-9714 * p - 19071 * q + 32767) / 65536 + P + Q - 112 := by omega
  constructor
  · by_cases hb : 0 ≤ P ∧ P < 0 + 157 ∧ 0 ≤ Q ∧ Q < 0 + 21
    · have l := lower_of u601_lower hb.1 hb.2.1 hb.2.2.1 hb.2.2.2 (by omega) (by omega)
      omega
    · omega
  · by_cases hb : 338 ≤ P ∧ P < 338 + 173 ∧ 488 ≤ Q ∧ Q < 488 + 23
    · have u := upper_of u601_upper hb.1 hb.2.1 hb.2.2.1 hb.2.2.2 (by omega) (by omega)
      omega
    · omega

theorem v601_upper :
    boxOk 0 31 0 47 (upperOk 28785 41433 18505 178755 0 0 100243 67019 0 11711608091) = true := by
  decide +kernel

theorem v601_lower :
    boxOk 481 30 467 44 (lowerOk 28785 41433 18505 178755 0 0 100243 67019 82381541 0) = true := by
  decide +kernel

theorem v601_worst {p q : Int} (h1 : -255 ≤ p ∧ p ≤ 255) (h2 : -255 ≤ q ∧ q ≤ 255)
    (h3 : -255 ≤ p - q ∧ p - q ≤ 255) :
    -89981 ≤ 78512 * p - 65744 * q - 178755 * ((28785 * p - 24103 * q + 32767) / 65536) ∧
    78512 * p - 65744 * q - 178755 * ((28785 * p - 24103 * q + 32767) / 65536) ≤ 89981 := by
  obtain ⟨P, hP⟩ := Int.eq_ofNat_of_zero_le (by omega : 0 ≤ p + 255)
  obtain ⟨Q, hQ⟩ := Int.eq_ofNat_of_zero_le (by omega : 0 ≤ q + 255)
  have e : ((((28785 * P + 41433 * Q + 18505) / 65536 : Nat)) : Int) = (28785 * p - 24103 * q + 32767) / 65536 + Q + 18 := by omega
  constructor
  · by_cases hb : 481 ≤ P ∧ P < 481 + 30 ∧ 467 ≤ Q ∧ Q < 467 + 44
    · have l := lower_of v601_lower hb.1 hb.2.1 hb.2.2.1 hb.2.2.2 (by omega) (by omega)
      omega
    · omega
  · by_cases hb : 0 ≤ P ∧ P < 0 + 31 ∧ 0 ≤ Q ∧ Q < 0 + 47
    · have u := upper_of v601_upper hb.1 hb.2.1 hb.2.2.1 hb.2.2.2 (by omega) (by omega)
      omega
    · omega

theorem u709_upper :
    boxOk 479 32 491 20 (upperOk 58940 43347 32910 1182945 251204 412173 0 0 0 77854647502) = true := by
  decide +kernel

theorem u709_lower :
    boxOk 0 28 0 17 (lowerOk 58940 43347 32910 1182945 251204 412173 0 0 0 6792398) = true := by
  decide +kernel

theorem u709_worst {p q : Int} (h1 : -255 ≤ p ∧ p ≤ 255) (h2 : -255 ≤ q ∧ q ≤ 255)
    (h3 : -255 ≤ p - q ∧ p - q ≤ 255) :
    -593932 ≤ -119056 * p - 400512 * q - 1182945 * ((-6596 * p - 22189 * q + 32767) / 65536) ∧
    -119056 * p - 400512 * q - 1182945 * ((-6596 * p - 22189 * q + 32767) / 65536) ≤ 593932 := by
  obtain ⟨P, hP⟩ := Int.eq_ofNat_of_zero_le (by omega : 0 ≤ p + 255)
  obtain ⟨Q, hQ⟩ := Int.eq_ofNat_of_zero_le (by omega : 0 ≤ q + 255)
  have e : ((((58940 * P + 43347 * Q + 32910) / 65536 : Nat)) : Int) = (-6596 * p - 22189 * q + 32767) / 65536 + P + Q - 112 := by omega
  constructor
  · by_cases hb : 0 ≤ P ∧ P < 0 + 28 ∧ 0 ≤ Q ∧ Q < 0 + 17
    · have l := lower_of u709_lower hb.1 hb.2.1 hb.2.2.1 hb.2.2.2 (by omega) (by omega)
      omega
    · omega
  · by_cases hb : 479 ≤ P ∧ P < 479 + 32 ∧ 491 ≤ Q ∧ Q < 491 + 20
    · have u := upper_of u709_upper hb.1 hb.2.1 hb.2.2.1 hb.2.2.2 (by omega) (by omega)
      omega
    · omega

theorem v709_upper :
    boxOk 0 28 0 209 (upperOk 28785 39391 14927 1003935 0 0 562991 73857 0 65777448465) = true := by
  decide +kernel

theorem v709_lower :
    boxOk 485 26 315 196 (lowerOk 28785 39391 14927 1003935 0 0 562991 73857 310364655 0) = true := by
  decide +kernel

theorem v709_worst {p q : Int} (h1 : -255 ≤ p ∧ p ≤ 255) (h2 : -255 ≤ q ∧ q ≤ 255)
    (h3 : -255 ≤ p - q ∧ p - q ≤ 255) :
    -504210 ≤ 440944 * p - 400512 * q - 1003935 * ((28785 * p - 26145 * q + 32767) / 65536) ∧
    440944 * p - 400512 * q - 1003935 * ((28785 * p - 26145 * q + 32767) / 65536) ≤ 504210 := by
  obtain ⟨P, hP⟩ := Int.eq_ofNat_of_zero_le (by omega : 0 ≤ p + 255)
  obtain ⟨Q, hQ⟩ := Int.eq_ofNat_of_zero_le (by omega : 0 ≤ q + 255)
  have e : ((((28785 * P + 39391 * Q + 14927) / 65536 : Nat)) : Int) = (28785 * p - 26145 * q + 32767) / 65536 + Q + 10 := by omega
  constructor
  · by_cases hb : 485 ≤ P ∧ P < 485 + 26 ∧ 315 ≤ Q ∧ Q < 315 + 196
    · have l := lower_of v709_lower hb.1 hb.2.1 hb.2.2.1 hb.2.2.2 (by omega) (by omega)
      omega
    · omega
  · by_cases hb : 0 ≤ P ∧ P < 0 + 28 ∧ 0 ≤ Q ∧ Q < 0 + 209
    · have u := upper_of v709_upper hb.1 hb.2.1 hb.2.2.1 hb.2.2.2 (by omega) (by omega)
      omega
    · omega

theorem y601FR_upper :
    boxOk 152 359 0 258 (upperOk 19595 38470 37329 1000 264 0 0 368 0 65575016) = true := by
  decide +kernel

theorem y601FR_lower :
    boxOk 0 363 251 260 (lowerOk 19595 38470 37329 1000 264 0 0 368 92056 0) = true := by
  decide +kernel

theorem y601FR_worst {p q : Int} (h1 : -255 ≤ p ∧ p ≤ 255) (h2 : -255 ≤ q ∧ q ≤ 255)
    (h3 : -255 ≤ p - q ∧ p - q ≤ 255) :
    -501 ≤ 299 * p + 587 * q - 1000 * ((19595 * p + 38470 * q + 32768) / 65536) ∧
    299 * p + 587 * q - 1000 * ((19595 * p + 38470 * q + 32768) / 65536) ≤ 501 := by
  obtain ⟨P, hP⟩ := Int.eq_ofNat_of_zero_le (by omega : 0 ≤ p + 255)
  obtain ⟨Q, hQ⟩ := Int.eq_ofNat_of_zero_le (by omega : 0 ≤ q + 255)
  have e : ((((19595 * P + 38470 * Q + 37329) / 65536 : Nat)) : Int) = (19595 * p + 38470 * q + 32768) / 65536 + 226 := by omega
  constructor
  · by_cases hb : 0 ≤ P ∧ P < 0 + 363 ∧ 251 ≤ Q ∧ Q < 251 + 260
    · have l := lower_of y601FR_lower hb.1 hb.2.1 hb.2.2.1 hb.2.2.2 (by omega) (by omega)
      omega
    · omega
  · by_cases hb : 152 ≤ P ∧ P < 152 + 359 ∧ 0 ≤ Q ∧ Q < 0 + 258
    · have u := upper_of y601FR_upper hb.1 hb.2.1 hb.2.2.1 hb.2.2.2 (by omega) (by omega)
      omega
    · omega

theorem u601FR_upper :
    boxOk 0 292 0 148 (upperOk 54478 43827 65280 1772 0 0 488 1284 0 115938304) = true := by
  decide +kernel

theorem u601FR_lower :
    boxOk 220 291 364 147 (lowerOk 54478 43827 65280 1772 0 0 488 1284 715776 0) = true := by
  decide +kernel

theorem u601FR_worst {p q : Int} (h1 : -255 ≤ p ∧ p ≤ 255) (h2 : -255 ≤ q ∧ q ≤ 255)
    (h3 : -255 ≤ p - q ∧ p - q ≤ 255) :
    -890 ≤ -299 * p - 587 * q - 1772 * ((-11058 * p - 21709 * q + 32767) / 65536) ∧
    -299 * p - 587 * q - 1772 * ((-11058 * p - 21709 * q + 32767) / 65536) ≤ 890 := by
  obtain ⟨P, hP⟩ := Int.eq_ofNat_of_zero_le (by omega : 0 ≤ p + 255)
  obtain ⟨Q, hQ⟩ := Int.eq_ofNat_of_zero_le (by omega : 0 ≤ q + 255)
  have e : ((((54478 * P + 43827 * Q + 65280) / 65536 : Nat)) : Int) = (-11058 * p - 21709 * q + 32767) / 65536 + P + Q - 127 := by omega
  constructor
  · by_cases hb : 220 ≤ P ∧ P < 220 + 291 ∧ 364 ≤ Q ∧ Q < 364 + 147
    · have l := lower_of u601FR_lower hb.1 hb.2.1 hb.2.2.1 hb.2.2.2 (by omega) (by omega)
      omega
    · omega
  · by_cases hb : 0 ≤ P ∧ P < 0 + 292 ∧ 0 ≤ Q ∧ Q < 0 + 148
    · have u := upper_of u601FR_upper hb.1 hb.2.1 hb.2.2.1 hb.2.2.2 (by omega) (by omega)
      omega
    · omega

theorem v601FR_upper :
    boxOk 434 77 179 332 (upperOk 32767 38097 50383 1402 1402 0 0 154 0 92460454) = true := by
  decide +kernel

theorem v601FR_lower :
    boxOk 0 76 0 331 (lowerOk 32767 38097 50383 1402 1402 0 0 154 0 54694) = true := by
  decide +kernel

theorem v601FR_worst {p q : Int} (h1 : -255 ≤ p ∧ p ≤ 255) (h2 : -255 ≤ q ∧ q ≤ 255)
    (h3 : -255 ≤ p - q ∧ p - q ≤ 255) :
    -705 ≤ 701 * p - 587 * q - 1402 * ((32767 * p - 27439 * q + 32767) / 65536) ∧
    701 * p - 587 * q - 1402 * ((32767 * p - 27439 * q + 32767) / 65536) ≤ 705 := by
  obtain ⟨P, hP⟩ := Int.eq_ofNat_of_zero_le (by omega : 0 ≤ p + 255)
  obtain ⟨Q, hQ⟩ := Int.eq_ofNat_of_zero_le (by omega : 0 ≤ q + 255)
  have e : ((((32767 * P + 38097 * Q + 50383) / 65536 : Nat)) : Int) = (32767 * p - 27439 * q + 32767) / 65536 + Q + 21 := by omega
  constructor
  · by_cases hb : 0 ≤ P ∧ P < 0 + 76 ∧ 0 ≤ Q ∧ Q < 0 + 331
    · have l := lower_of v601FR_lower hb.1 hb.2.1 hb.2.2.1 hb.2.2.2 (by omega) (by omega)
      omega
    · omega
  · by_cases hb : 434 ≤ P ∧ P < 434 + 77 ∧ 179 ≤ Q ∧ Q < 179 + 332
    · have u := upper_of v601FR_upper hb.1 hb.2.1 hb.2.2.1 hb.2.2.2 (by omega) (by omega)
      omega
    · omega

theorem y709FR_upper :
    boxOk 226 221 481 30 (upperOk 13933 46871 59780 5000 0 1736 232 0 0 328456736) = true := by
  decide +kernel

theorem y709FR_lower :
    boxOk 42 246 0 33 (lowerOk 13933 46871 59780 5000 0 1736 232 0 9696 0) = true := by
  decide +kernel

theorem y709FR_worst {p q : Int} (h1 : -255 ≤ p ∧ p ≤ 255) (h2 : -255 ≤ q ∧ q ≤ 255)
    (h3 : -255 ≤ p - q ∧ p - q ≤ 255) :
    -2506 ≤ 1063 * p + 3576 * q - 5000 * ((13933 * p + 46871 * q + 32768) / 65536) ∧
    1063 * p + 3576 * q - 5000 * ((13933 * p + 46871 * q + 32768) / 65536) ≤ 2506 := by
  obtain ⟨P, hP⟩ := Int.eq_ofNat_of_zero_le (by omega : 0 ≤ p + 255)
  obtain ⟨Q, hQ⟩ := Int.eq_ofNat_of_zero_le (by omega : 0 ≤ q + 255)
  have e : ((((13933 * P + 46871 * Q + 59780) / 65536 : Nat)) : Int) = (13933 * p + 46871 * q + 32768) / 65536 + 237 := by omega
  constructor
  · by_cases hb : 42 ≤ P ∧ P < 42 + 246 ∧ 0 ≤ Q ∧ Q < 0 + 33
    · have l := lower_of y709FR_lower hb.1 hb.2.1 hb.2.2.1 hb.2.2.2 (by omega) (by omega)
      omega
    · omega
  · by_cases hb : 226 ≤ P ∧ P < 226 + 221 ∧ 481 ≤ Q ∧ Q < 481 + 30
    · have u := upper_of y709FR_upper hb.1 hb.2.1 hb.2.2.1 hb.2.2.2 (by omega) (by omega)
      omega
    · omega

theorem u709FR_upper :
    boxOk 0 250 0 302 (upperOk 58028 40277 65280 9278 0 0 5544 3734 0 606650880) = true := by
  decide +kernel

theorem u709FR_lower :
    boxOk 263 248 210 301 (lowerOk 58028 40277 65280 9278 0 0 5544 3734 3358208 0) = true := by
  decide +kernel

theorem u709FR_worst {p q : Int} (h1 : -255 ≤ p ∧ p ≤ 255) (h2 : -255 ≤ q ∧ q ≤ 255)
    (h3 : -255 ≤ p - q ∧ p - q ≤ 255) :
    -4654 ≤ -1063 * p - 3576 * q - 9278 * ((-7508 * p - 25259 * q + 32767) / 65536) ∧
    -1063 * p - 3576 * q - 9278 * ((-7508 * p - 25259 * q + 32767) / 65536) ≤ 4654 := by
  obtain ⟨P, hP⟩ := Int.eq_ofNat_of_zero_le (by omega : 0 ≤ p + 255)
  obtain ⟨Q, hQ⟩ := Int.eq_ofNat_of_zero_le (by omega : 0 ≤ q + 255)
  have e : ((((58028 * P + 40277 * Q + 65280) / 65536 : Nat)) : Int) = (-7508 * p - 25259 * q + 32767) / 65536 + P + Q - 127 := by omega
  constructor
  · by_cases hb : 263 ≤ P ∧ P < 263 + 248 ∧ 210 ≤ Q ∧ Q < 210 + 301
    · have l := lower_of u709FR_lower hb.1 hb.2.1 hb.2.2.1 hb.2.2.2 (by omega) (by omega)
      omega
    · omega
  · by_cases hb : 0 ≤ P ∧ P < 0 + 250 ∧ 0 ≤ Q ∧ Q < 0 + 302
    · have u := upper_of u709FR_upper hb.1 hb.2.1 hb.2.2.1 hb.2.2.2 (by omega) (by omega)
      omega
    · omega

theorem v709FR_upper :
    boxOk 384 127 129 346 (upperOk 32767 35773 53179 7874 7874 0 0 2874 0 518673846) = true := by
  decide +kernel

theorem v709FR_lower :
    boxOk 0 125 38 342 (lowerOk 32767 35773 53179 7874 7874 0 0 2874 109130 0) = true := by
  decide +kernel

theorem v709FR_worst {p q : Int} (h1 : -255 ≤ p ∧ p ≤ 255) (h2 : -255 ≤ q ∧ q ≤ 255)
    (h3 : -255 ≤ p - q ∧ p - q ≤ 255) :
    -3958 ≤ 3937 * p - 3576 * q - 7874 * ((32767 * p - 29763 * q + 32767) / 65536) ∧
    3937 * p - 3576 * q - 7874 * ((32767 * p - 29763 * q + 32767) / 65536) ≤ 3958 := by
  obtain ⟨P, hP⟩ := Int.eq_ofNat_of_zero_le (by omega : 0 ≤ p + 255)
  obtain ⟨Q, hQ⟩ := Int.eq_ofNat_of_zero_le (by omega : 0 ≤ q + 255)
  have e : ((((32767 * P + 35773 * Q + 53179) / 65536 : Nat)) : Int) = (32767 * p - 29763 * q + 32767) / 65536 + Q + 12 := by omega
  constructor
  · by_cases hb : 0 ≤ P ∧ P < 0 + 125 ∧ 38 ≤ Q ∧ Q < 38 + 342
    · have l := lower_of v709FR_lower hb.1 hb.2.1 hb.2.2.1 hb.2.2.2 (by omega) (by omega)
      omega
    · omega
  · by_cases hb : 384 ≤ P ∧ P < 384 + 127 ∧ 129 ≤ Q ∧ Q < 129 + 346
    · have u := upper_of v709FR_upper hb.1 hb.2.1 hb.2.2.1 hb.2.2.2 (by omega) (by omega)
      omega
    · omega

end Verif.Worst
