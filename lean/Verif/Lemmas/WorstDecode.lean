import Verif.Lemmas.Worst
/-!
# Worst decoding errors, by exhaustion

Red and blue depend on two samples: the kernel checks all 65536 pairs. Green depends on three; in full
range the luma sample contributes no error, in limited range its rounding can only make green smaller,
and the chroma pairs for which that is not enough are checked with every luma sample.
-/

namespace Verif.Worst

/-- Both bounds of the error of red or blue, where the (shifted) value is not below `e` and below
`f`. -/
noncomputable def ok2 (ky k off d a b u u' l l' e f P Q : Nat) : Bool :=
  (fun V lin : Nat => Bool.rec true (Bool.rec
      (Bool.rec false (Nat.ble (Nat.add lin l) (Nat.add (Nat.mul d V) l'))
        (Nat.ble (Nat.add (Nat.mul d V) u) (Nat.add lin u')))
      true (Nat.ble f V)) (Nat.ble e V))
  (Nat.div (Nat.add (Nat.add (Nat.div (Nat.mul P ky) (nat_lit 256))
    (Nat.div (Nat.mul Q k) (nat_lit 256))) off) (nat_lit 64))
  (Nat.add (Nat.mul a P) (Nat.mul b Q))

theorem ok2_spec {ky k off d a b u u' l l' e f P Q : Nat}
    (h : allB 0 256 (fun P => allB 0 256 (ok2 ky k off d a b u u' l l' e f P)) = true)
    (hP : P < 256) (hQ : Q < 256) (hx : e ≤ (P * ky / 256 + Q * k / 256 + off) / 64 ∧
      (P * ky / 256 + Q * k / 256 + off) / 64 < f) :
    d * ((P * ky / 256 + Q * k / 256 + off) / 64) + u ≤ a * P + b * Q + u' ∧
    a * P + b * Q + l ≤ d * ((P * ky / 256 + Q * k / 256 + off) / 64) + l' := by
  have h := allB_spec (allB_spec h P (Nat.zero_le _) (by omega)) Q (Nat.zero_le _) (by omega)
  replace h : (Bool.rec true (Bool.rec
      (Bool.rec false (Nat.ble (a * P + b * Q + l)
          (d * ((P * ky / 256 + Q * k / 256 + off) / 64) + l'))
        (Nat.ble (d * ((P * ky / 256 + Q * k / 256 + off) / 64) + u) (a * P + b * Q + u')))
      true (Nat.ble f ((P * ky / 256 + Q * k / 256 + off) / 64)))
      (Nat.ble e ((P * ky / 256 + Q * k / 256 + off) / 64)) : Bool) = true := h
  rw [Nat.ble_eq_true_of_le hx.1] at h
  generalize hf : Nat.ble f _ = z at h
  cases z with
  | true => exact absurd (Nat.le_of_ble_eq_true hf) (by omega)
  | false =>
    generalize hu : Nat.ble (_ + u) _ = x at h
    cases x with
    | false => cases h
    | true => exact ⟨Nat.le_of_ble_eq_true hu, Nat.le_of_ble_eq_true h⟩

/-- Both bounds of the error of green in full range. -/
noncomputable def okG (kb kr off d b c u u' l l' Q R : Nat) : Bool :=
  (fun V : Nat => Bool.rec false (Nat.ble l' (Nat.add V l)) (Nat.ble (Nat.add V u) u'))
  (Nat.add (Nat.mul d (Nat.div (Nat.sub off (Nat.add (Nat.div (Nat.mul Q kb) (nat_lit 256))
    (Nat.div (Nat.mul R kr) (nat_lit 256)))) (nat_lit 64))) (Nat.add (Nat.mul b Q) (Nat.mul c R)))

theorem okG_spec {kb kr off d b c u u' l l' Q R : Nat}
    (h : allB 0 256 (fun Q => allB 0 256 (okG kb kr off d b c u u' l l' Q)) = true)
    (hQ : Q < 256) (hR : R < 256) :
    d * ((off - (Q * kb / 256 + R * kr / 256)) / 64) + (b * Q + c * R) + u ≤ u' ∧
    l' ≤ d * ((off - (Q * kb / 256 + R * kr / 256)) / 64) + (b * Q + c * R) + l := by
  have h := allB_spec (allB_spec h Q (Nat.zero_le _) (by omega)) R (Nat.zero_le _) (by omega)
  replace h : (Bool.rec false
      (Nat.ble l' (d * ((off - (Q * kb / 256 + R * kr / 256)) / 64) + (b * Q + c * R) + l))
      (Nat.ble (d * ((off - (Q * kb / 256 + R * kr / 256)) / 64) + (b * Q + c * R) + u) u') : Bool) =
      true := h
  generalize hu : Nat.ble (_ + u) _ = x at h
  cases x with
  | false => cases h
  | true => exact ⟨Nat.le_of_ble_eq_true hu, Nat.le_of_ble_eq_true h⟩

/-- The upper bound of the error of green in limited range: either for any luma, or checked for
each. -/
noncomputable def okP (ky kb kr off d a b c p p' u u' Q R : Nat) : Bool :=
  (fun B C : Nat => Bool.rec
    (allB (nat_lit 0) (nat_lit 256) fun P => Nat.ble
      (Nat.add (Nat.add (Nat.mul d (Nat.div (Nat.sub (Nat.add (Nat.div (Nat.mul P ky) (nat_lit 256)) off)
        (Nat.add B C)) (nat_lit 64))) (Nat.add (Nat.mul b Q) (Nat.mul c R))) u)
      (Nat.add (Nat.mul a P) u')) true
    (Nat.ble (Nat.add (Nat.mul (nat_lit 64) (Nat.add (Nat.mul b Q) (Nat.mul c R))) p)
      (Nat.add (Nat.mul d (Nat.add B C)) p')))
  (Nat.div (Nat.mul Q kb) (nat_lit 256)) (Nat.div (Nat.mul R kr) (nat_lit 256))

theorem okP_spec {ky kb kr off d a b c p p' u u' Q R : Nat}
    (h : allB 0 256 (fun Q => allB 0 256 (okP ky kb kr off d a b c p p' u u' Q)) = true)
    (hQ : Q < 256) (hR : R < 256) :
    64 * (b * Q + c * R) + p ≤ d * (Q * kb / 256 + R * kr / 256) + p' ∨
    ∀ P, P < 256 → d * ((P * ky / 256 + off - (Q * kb / 256 + R * kr / 256)) / 64) +
      (b * Q + c * R) + u ≤ a * P + u' := by
  have h := allB_spec (allB_spec h Q (Nat.zero_le _) (by omega)) R (Nat.zero_le _) (by omega)
  replace h : (Bool.rec
      (allB 0 256 fun P => Nat.ble
        (d * ((P * ky / 256 + off - (Q * kb / 256 + R * kr / 256)) / 64) + (b * Q + c * R) + u)
        (a * P + u')) true
      (Nat.ble (64 * (b * Q + c * R) + p) (d * (Q * kb / 256 + R * kr / 256) + p')) : Bool) = true := h
  generalize hu : Nat.ble (_ + p) _ = x at h
  cases x with
  | true => exact .inl (Nat.le_of_ble_eq_true hu)
  | false =>
    refine .inr fun P hP => ?_
    exact Nat.le_of_ble_eq_true (allB_spec h P (Nat.zero_le _) (by omega))

theorem r601_ok : allB 0 256 (fun P => allB 0 256 (ok2 19077 26149 38 1635200 1904000 2609823 0 963473 0 706961 223 479 P)) = true := by
  decide +kernel

theorem r601_worst {y c : Int} (hy : 0 ≤ y ∧ y ≤ 255) (hc : 0 ≤ c ∧ c ≤ 255)
    (hx : 0 ≤ (y * 19077 / 256 + c * 26149 / 256 - 14234) / 64 ∧
      (y * 19077 / 256 + c * 26149 / 256 - 14234) / 64 ≤ 255) :
    -835217 ≤ 1635200 * ((y * 19077 / 256 + c * 26149 / 256 - 14234) / 64) - 1904000 * (y - 16) - 2609823 * (c - 128) ∧
    1635200 * ((y * 19077 / 256 + c * 26149 / 256 - 14234) / 64) - 1904000 * (y - 16) - 2609823 * (c - 128) ≤ 835217 := by
  obtain ⟨P, rfl⟩ := Int.eq_ofNat_of_zero_le hy.1
  obtain ⟨Q, rfl⟩ := Int.eq_ofNat_of_zero_le hc.1
  have e0 : ((P * 19077 / 256 : Nat) : Int) = (P : Int) * 19077 / 256 := Int.natCast_ediv ..
  have e1 : ((Q * 26149 / 256 : Nat) : Int) = (Q : Int) * 26149 / 256 := Int.natCast_ediv ..
  have e : (((P * 19077 / 256 + Q * 26149 / 256 + 38) / 64 : Nat) : Int) = ((P : Int) * 19077 / 256 + (Q : Int) * 26149 / 256 - 14234) / 64 + 223 := by omega
  have h := ok2_spec r601_ok (P := P) (Q := Q) (by omega) (by omega) (by omega)
  omega

theorem b601_ok : allB 0 256 (fun P => allB 0 256 (ok2 19077 33050 43 817600 952000 1649289 0 553510 0 285094 277 533 P)) = true := by
  decide +kernel

theorem b601_worst {y c : Int} (hy : 0 ≤ y ∧ y ≤ 255) (hc : 0 ≤ c ∧ c ≤ 255)
    (hx : 0 ≤ (y * 19077 / 256 + c * 33050 / 256 - 17685) / 64 ∧
      (y * 19077 / 256 + c * 33050 / 256 - 17685) / 64 ≤ 255) :
    -419302 ≤ 817600 * ((y * 19077 / 256 + c * 33050 / 256 - 17685) / 64) - 952000 * (y - 16) - 1649289 * (c - 128) ∧
    817600 * ((y * 19077 / 256 + c * 33050 / 256 - 17685) / 64) - 952000 * (y - 16) - 1649289 * (c - 128) ≤ 419302 := by
  obtain ⟨P, rfl⟩ := Int.eq_ofNat_of_zero_le hy.1
  obtain ⟨Q, rfl⟩ := Int.eq_ofNat_of_zero_le hc.1
  have e0 : ((P * 19077 / 256 : Nat) : Int) = (P : Int) * 19077 / 256 := Int.natCast_ediv ..
  have e1 : ((Q * 33050 / 256 : Nat) : Int) = (Q : Int) * 33050 / 256 := Int.natCast_ediv ..
  have e : (((P * 19077 / 256 + Q * 33050 / 256 + 43) / 64 : Nat) : Int) = ((P : Int) * 19077 / 256 + (Q : Int) * 33050 / 256 - 17685) / 64 + 277 := by omega
  have h := ok2_spec b601_ok (P := P) (Q := Q) (by omega) (by omega) (by omega)
  omega

theorem g601_ok : allB 0 256 (fun Q => allB 0 256 (okP 19077 6419 13320 19717 959862400 1117648000 376037892 780337077 0 1673409088 0 295738755467 Q)) = true := by
  decide +kernel

theorem g601_worst {y u v : Int} (hy : 0 ≤ y ∧ y ≤ 255) (hu : 0 ≤ u ∧ u ≤ 255) (hv : 0 ≤ v ∧ v ≤ 255) :
    -508794635 ≤ 959862400 * ((y * 19077 / 256 - u * 6419 / 256 - v * 13320 / 256 + 8709) / 64) - 1117648000 * (y - 16) + 376037892 * (u - 128) + 780337077 * (v - 128) ∧
    959862400 * ((y * 19077 / 256 - u * 6419 / 256 - v * 13320 / 256 + 8709) / 64) - 1117648000 * (y - 16) + 376037892 * (u - 128) + 780337077 * (v - 128) ≤ 508794635 := by
  constructor
  · omega
  obtain ⟨P, rfl⟩ := Int.eq_ofNat_of_zero_le hy.1
  obtain ⟨Q, rfl⟩ := Int.eq_ofNat_of_zero_le hu.1
  obtain ⟨R, rfl⟩ := Int.eq_ofNat_of_zero_le hv.1
  have e0 : ((P * 19077 / 256 : Nat) : Int) = (P : Int) * 19077 / 256 := Int.natCast_ediv ..
  have e1 : ((Q * 6419 / 256 : Nat) : Int) = (Q : Int) * 6419 / 256 := Int.natCast_ediv ..
  have e2 : ((R * 13320 / 256 : Nat) : Int) = (R : Int) * 13320 / 256 := Int.natCast_ediv ..
  rcases okP_spec g601_ok (Q := Q) (R := R) (by omega) (by omega) with h | h
  · omega
  · have h := h P (by omega)
    have e : (((P * 19077 / 256 + 19717 - (Q * 6419 / 256 + R * 13320 / 256)) / 64 : Nat) : Int) = ((P : Int) * 19077 / 256 - (Q : Int) * 6419 / 256 - (R : Int) * 13320 / 256 + 8709) / 64 + 172 := by omega
    omega

theorem r709_ok : allB 0 256 (fun P => allB 0 256 (ok2 19077 29372 26 8176000 9520000 14657451 0 3360546 0 5012002 248 504 P)) = true := by
  decide +kernel

theorem r709_worst {y c : Int} (hy : 0 ≤ y ∧ y ≤ 255) (hc : 0 ≤ c ∧ c ≤ 255)
    (hx : 0 ≤ (y * 19077 / 256 + c * 29372 / 256 - 15846) / 64 ∧
      (y * 19077 / 256 + c * 29372 / 256 - 15846) / 64 ≤ 255) :
    -4186274 ≤ 8176000 * ((y * 19077 / 256 + c * 29372 / 256 - 15846) / 64) - 9520000 * (y - 16) - 14657451 * (c - 128) ∧
    8176000 * ((y * 19077 / 256 + c * 29372 / 256 - 15846) / 64) - 9520000 * (y - 16) - 14657451 * (c - 128) ≤ 4186274 := by
  obtain ⟨P, rfl⟩ := Int.eq_ofNat_of_zero_le hy.1
  obtain ⟨Q, rfl⟩ := Int.eq_ofNat_of_zero_le hc.1
  have e0 : ((P * 19077 / 256 : Nat) : Int) = (P : Int) * 19077 / 256 := Int.natCast_ediv ..
  have e1 : ((Q * 29372 / 256 : Nat) : Int) = (Q : Int) * 29372 / 256 := Int.natCast_ediv ..
  have e : (((P * 19077 / 256 + Q * 29372 / 256 + 26) / 64 : Nat) : Int) = ((P : Int) * 19077 / 256 + (Q : Int) * 29372 / 256 - 15846) / 64 + 248 := by omega
  have h := ok2_spec r709_ok (P := P) (Q := Q) (by omega) (by omega) (by omega)
  omega

theorem b709_ok : allB 0 256 (fun P => allB 0 256 (ok2 19077 34610 31 8176000 9520000 17270997 0 4065507 0 4352739 289 545 P)) = true := by
  decide +kernel

theorem b709_worst {y c : Int} (hy : 0 ≤ y ∧ y ≤ 255) (hc : 0 ≤ c ∧ c ≤ 255)
    (hx : 0 ≤ (y * 19077 / 256 + c * 34610 / 256 - 18465) / 64 ∧
      (y * 19077 / 256 + c * 34610 / 256 - 18465) / 64 ≤ 255) :
    -4209123 ≤ 8176000 * ((y * 19077 / 256 + c * 34610 / 256 - 18465) / 64) - 9520000 * (y - 16) - 17270997 * (c - 128) ∧
    8176000 * ((y * 19077 / 256 + c * 34610 / 256 - 18465) / 64) - 9520000 * (y - 16) - 17270997 * (c - 128) ≤ 4209123 := by
  obtain ⟨P, rfl⟩ := Int.eq_ofNat_of_zero_le hy.1
  obtain ⟨Q, rfl⟩ := Int.eq_ofNat_of_zero_le hc.1
  have e0 : ((P * 19077 / 256 : Nat) : Int) = (P : Int) * 19077 / 256 := Int.natCast_ediv ..
  have e1 : ((Q * 34610 / 256 : Nat) : Int) = (Q : Int) * 34610 / 256 := Int.natCast_ediv ..
  have e : (((P * 19077 / 256 + Q * 34610 / 256 + 31) / 64 : Nat) : Int) = ((P : Int) * 19077 / 256 + (Q : Int) * 34610 / 256 - 18465) / 64 + 289 := by omega
  have h := ok2_spec b709_ok (P := P) (Q := Q) (by omega) (by omega) (by omega)
  omega

theorem g709_ok : allB 0 256 (fun Q => allB 0 256 (okP 19077 3494 8731 12184 9745792000 11347840000 2078276639 5193623471 0 19895828544 0 1855666024321 Q)) = true := by
  decide +kernel

theorem g709_worst {y u v : Int} (hy : 0 ≤ y ∧ y ≤ 255) (hu : 0 ≤ u ∧ u ≤ 255) (hv : 0 ≤ v ∧ v ≤ 255) :
    -5153754241 ≤ 9745792000 * ((y * 19077 / 256 - u * 3494 / 256 - v * 8731 / 256 + 4952) / 64) - 11347840000 * (y - 16) + 2078276639 * (u - 128) + 5193623471 * (v - 128) ∧
    9745792000 * ((y * 19077 / 256 - u * 3494 / 256 - v * 8731 / 256 + 4952) / 64) - 11347840000 * (y - 16) + 2078276639 * (u - 128) + 5193623471 * (v - 128) ≤ 5153754241 := by
  constructor
  · omega
  obtain ⟨P, rfl⟩ := Int.eq_ofNat_of_zero_le hy.1
  obtain ⟨Q, rfl⟩ := Int.eq_ofNat_of_zero_le hu.1
  obtain ⟨R, rfl⟩ := Int.eq_ofNat_of_zero_le hv.1
  have e0 : ((P * 19077 / 256 : Nat) : Int) = (P : Int) * 19077 / 256 := Int.natCast_ediv ..
  have e1 : ((Q * 3494 / 256 : Nat) : Int) = (Q : Int) * 3494 / 256 := Int.natCast_ediv ..
  have e2 : ((R * 8731 / 256 : Nat) : Int) = (R : Int) * 8731 / 256 := Int.natCast_ediv ..
  rcases okP_spec g709_ok (Q := Q) (R := R) (by omega) (by omega) with h | h
  · omega
  · have h := h P (by omega)
    have e : (((P * 19077 / 256 + 12184 - (Q * 3494 / 256 + R * 8731 / 256)) / 64 : Nat) : Int) = ((P : Int) * 19077 / 256 - (Q : Int) * 3494 / 256 - (R : Int) * 8731 / 256 + 4952) / 64 + 113 := by omega
    omega

theorem r601FR_ok : allB 0 256 (fun P => allB 0 256 (ok2 16384 22970 29 500 500 701 0 224 0 1680 0 100000 P)) = true := by
  decide +kernel

theorem r601FR_worst {y c : Int} (hy : 0 ≤ y ∧ y ≤ 255) (hc : 0 ≤ c ∧ c ≤ 255) :
    -952 ≤ 500 * ((y * 16384 / 256 + c * 22970 / 256 - 11363) / 64) - 500 * (y - 0) - 701 * (c - 128) ∧
    500 * ((y * 16384 / 256 + c * 22970 / 256 - 11363) / 64) - 500 * (y - 0) - 701 * (c - 128) ≤ 952 := by
  obtain ⟨P, rfl⟩ := Int.eq_ofNat_of_zero_le hy.1
  obtain ⟨Q, rfl⟩ := Int.eq_ofNat_of_zero_le hc.1
  have e0 : ((P * 16384 / 256 : Nat) : Int) = (P : Int) * 16384 / 256 := Int.natCast_ediv ..
  have e1 : ((Q * 22970 / 256 : Nat) : Int) = (Q : Int) * 22970 / 256 := Int.natCast_ediv ..
  have e : (((P * 16384 / 256 + Q * 22970 / 256 + 29) / 64 : Nat) : Int) = ((P : Int) * 16384 / 256 + (Q : Int) * 22970 / 256 - 11363) / 64 + 178 := by omega
  have h := ok2_spec r601FR_ok (P := P) (Q := Q) (by omega) (by omega) (by omega)
  omega

theorem b601FR_ok : allB 0 256 (fun P => allB 0 256 (ok2 16384 29032 30 250 250 443 0 116 0 1024 0 100000 P)) = true := by
  decide +kernel

theorem b601FR_worst {y c : Int} (hy : 0 ≤ y ∧ y ≤ 255) (hc : 0 ≤ c ∧ c ≤ 255) :
    -570 ≤ 250 * ((y * 16384 / 256 + c * 29032 / 256 - 14370) / 64) - 250 * (y - 0) - 443 * (c - 128) ∧
    250 * ((y * 16384 / 256 + c * 29032 / 256 - 14370) / 64) - 250 * (y - 0) - 443 * (c - 128) ≤ 570 := by
  obtain ⟨P, rfl⟩ := Int.eq_ofNat_of_zero_le hy.1
  obtain ⟨Q, rfl⟩ := Int.eq_ofNat_of_zero_le hc.1
  have e0 : ((P * 16384 / 256 : Nat) : Int) = (P : Int) * 16384 / 256 := Int.natCast_ediv ..
  have e1 : ((Q * 29032 / 256 : Nat) : Int) = (Q : Int) * 29032 / 256 := Int.natCast_ediv ..
  have e : (((P * 16384 / 256 + Q * 29032 / 256 + 30) / 64 : Nat) : Int) = ((P : Int) * 16384 / 256 + (Q : Int) * 29032 / 256 - 14370) / 64 + 225 := by omega
  have h := ok2_spec b601FR_ok (P := P) (Q := Q) (by omega) (by omega) (by omega)
  omega

theorem g601FR_ok : allB 0 256 (fun Q => allB 0 256 (okG 5638 11700 17273 293500 101004 209599 0 79834711 0 78924657 Q)) = true := by
  decide +kernel

theorem g601FR_worst {y u v : Int} (hu : 0 ≤ u ∧ u ≤ 255) (hv : 0 ≤ v ∧ v ≤ 255) :
    -455027 ≤ 293500 * ((y * 16384 / 256 - u * 5638 / 256 - v * 11700 / 256 + 8633) / 64) - 293500 * (y - 0) + 101004 * (u - 128) + 209599 * (v - 128) ∧
    293500 * ((y * 16384 / 256 - u * 5638 / 256 - v * 11700 / 256 + 8633) / 64) - 293500 * (y - 0) + 101004 * (u - 128) + 209599 * (v - 128) ≤ 455027 := by
  obtain ⟨Q, rfl⟩ := Int.eq_ofNat_of_zero_le hu.1
  obtain ⟨R, rfl⟩ := Int.eq_ofNat_of_zero_le hv.1
  have e0 : ((Q * 5638 / 256 : Nat) : Int) = (Q : Int) * 5638 / 256 := Int.natCast_ediv ..
  have e1 : ((R * 11700 / 256 : Nat) : Int) = (R : Int) * 11700 / 256 := Int.natCast_ediv ..
  have h := okG_spec g601FR_ok (Q := Q) (R := R) (by omega) (by omega)
  have e : (((17273 - (Q * 5638 / 256 + R * 11700 / 256)) / 64 : Nat) : Int) = (y * 16384 / 256 - (Q : Int) * 5638 / 256 - (R : Int) * 11700 / 256 + 8633) / 64 + 135 - y := by omega
  omega

theorem r601FRc_ok : allB 0 256 (fun P => allB 0 256 (ok2 16384 22970 29 500 500 701 0 224 0 278 0 100000 P)) = true := by
  decide +kernel

theorem r601FRc_worst {y c : Int} (hy : 0 ≤ y ∧ y ≤ 255) (hc : 0 ≤ c ∧ c ≤ 255) :
    -251 ≤ 500 * ((y * 16384 / 256 + c * 22970 / 256 - 11363) / 64) - 500 * (y - 0) - 701 * (c - 127) ∧
    500 * ((y * 16384 / 256 + c * 22970 / 256 - 11363) / 64) - 500 * (y - 0) - 701 * (c - 127) ≤ 251 := by
  obtain ⟨P, rfl⟩ := Int.eq_ofNat_of_zero_le hy.1
  obtain ⟨Q, rfl⟩ := Int.eq_ofNat_of_zero_le hc.1
  have e0 : ((P * 16384 / 256 : Nat) : Int) = (P : Int) * 16384 / 256 := Int.natCast_ediv ..
  have e1 : ((Q * 22970 / 256 : Nat) : Int) = (Q : Int) * 22970 / 256 := Int.natCast_ediv ..
  have e : (((P * 16384 / 256 + Q * 22970 / 256 + 29) / 64 : Nat) : Int) = ((P : Int) * 16384 / 256 + (Q : Int) * 22970 / 256 - 11363) / 64 + 178 := by omega
  have h := ok2_spec r601FRc_ok (P := P) (Q := Q) (by omega) (by omega) (by omega)
  omega

theorem b601FRc_ok : allB 0 256 (fun P => allB 0 256 (ok2 16384 29032 30 250 250 443 0 116 0 138 0 100000 P)) = true := by
  decide +kernel

theorem b601FRc_worst {y c : Int} (hy : 0 ≤ y ∧ y ≤ 255) (hc : 0 ≤ c ∧ c ≤ 255) :
    -127 ≤ 250 * ((y * 16384 / 256 + c * 29032 / 256 - 14370) / 64) - 250 * (y - 0) - 443 * (c - 127) ∧
    250 * ((y * 16384 / 256 + c * 29032 / 256 - 14370) / 64) - 250 * (y - 0) - 443 * (c - 127) ≤ 127 := by
  obtain ⟨P, rfl⟩ := Int.eq_ofNat_of_zero_le hy.1
  obtain ⟨Q, rfl⟩ := Int.eq_ofNat_of_zero_le hc.1
  have e0 : ((P * 16384 / 256 : Nat) : Int) = (P : Int) * 16384 / 256 := Int.natCast_ediv ..
  have e1 : ((Q * 29032 / 256 : Nat) : Int) = (Q : Int) * 29032 / 256 := Int.natCast_ediv ..
  have e : (((P * 16384 / 256 + Q * 29032 / 256 + 30) / 64 : Nat) : Int) = ((P : Int) * 16384 / 256 + (Q : Int) * 29032 / 256 - 14370) / 64 + 225 := by omega
  have h := ok2_spec b601FRc_ok (P := P) (Q := Q) (by omega) (by omega) (by omega)
  omega

theorem g601FRc_ok : allB 0 256 (fun Q => allB 0 256 (okG 5638 11700 17273 293500 101004 209599 0 79224366 0 78913796 Q)) = true := by
  decide +kernel

theorem g601FRc_worst {y u v : Int} (hu : 0 ≤ u ∧ u ≤ 255) (hv : 0 ≤ v ∧ v ≤ 255) :
    -155285 ≤ 293500 * ((y * 16384 / 256 - u * 5638 / 256 - v * 11700 / 256 + 8633) / 64) - 293500 * (y - 0) + 101004 * (u - 127) + 209599 * (v - 127) ∧
    293500 * ((y * 16384 / 256 - u * 5638 / 256 - v * 11700 / 256 + 8633) / 64) - 293500 * (y - 0) + 101004 * (u - 127) + 209599 * (v - 127) ≤ 155285 := by
  obtain ⟨Q, rfl⟩ := Int.eq_ofNat_of_zero_le hu.1
  obtain ⟨R, rfl⟩ := Int.eq_ofNat_of_zero_le hv.1
  have e0 : ((Q * 5638 / 256 : Nat) : Int) = (Q : Int) * 5638 / 256 := Int.natCast_ediv ..
  have e1 : ((R * 11700 / 256 : Nat) : Int) = (R : Int) * 11700 / 256 := Int.natCast_ediv ..
  have h := okG_spec g601FRc_ok (Q := Q) (R := R) (by omega) (by omega)
  have e : (((17273 - (Q * 5638 / 256 + R * 11700 / 256)) / 64 : Nat) : Int) = (y * 16384 / 256 - (Q : Int) * 5638 / 256 - (R : Int) * 11700 / 256 + 8633) / 64 + 135 - y := by omega
  omega

theorem r709FR_ok : allB 0 256 (fun P => allB 0 256 (ok2 16384 25802 32 2500 2500 3937 0 1242 0 9114 0 100000 P)) = true := by
  decide +kernel

theorem r709FR_worst {y c : Int} (hy : 0 ≤ y ∧ y ≤ 255) (hc : 0 ≤ c ∧ c ≤ 255) :
    -5178 ≤ 2500 * ((y * 16384 / 256 + c * 25802 / 256 - 12768) / 64) - 2500 * (y - 0) - 3937 * (c - 128) ∧
    2500 * ((y * 16384 / 256 + c * 25802 / 256 - 12768) / 64) - 2500 * (y - 0) - 3937 * (c - 128) ≤ 5178 := by
  obtain ⟨P, rfl⟩ := Int.eq_ofNat_of_zero_le hy.1
  obtain ⟨Q, rfl⟩ := Int.eq_ofNat_of_zero_le hc.1
  have e0 : ((P * 16384 / 256 : Nat) : Int) = (P : Int) * 16384 / 256 := Int.natCast_ediv ..
  have e1 : ((Q * 25802 / 256 : Nat) : Int) = (Q : Int) * 25802 / 256 := Int.natCast_ediv ..
  have e : (((P * 16384 / 256 + Q * 25802 / 256 + 32) / 64 : Nat) : Int) = ((P : Int) * 16384 / 256 + (Q : Int) * 25802 / 256 - 12768) / 64 + 200 := by omega
  have h := ok2_spec r709FR_ok (P := P) (Q := Q) (by omega) (by omega) (by omega)
  omega

theorem b709FR_ok : allB 0 256 (fun P => allB 0 256 (ok2 16384 30402 54 2500 2500 4639 0 2102 0 9686 0 100000 P)) = true := by
  decide +kernel

theorem b709FR_worst {y c : Int} (hy : 0 ≤ y ∧ y ≤ 255) (hc : 0 ≤ c ∧ c ≤ 255) :
    -5894 ≤ 2500 * ((y * 16384 / 256 + c * 30402 / 256 - 15050) / 64) - 2500 * (y - 0) - 4639 * (c - 128) ∧
    2500 * ((y * 16384 / 256 + c * 30402 / 256 - 15050) / 64) - 2500 * (y - 0) - 4639 * (c - 128) ≤ 5894 := by
  obtain ⟨P, rfl⟩ := Int.eq_ofNat_of_zero_le hy.1
  obtain ⟨Q, rfl⟩ := Int.eq_ofNat_of_zero_le hc.1
  have e0 : ((P * 16384 / 256 : Nat) : Int) = (P : Int) * 16384 / 256 := Int.natCast_ediv ..
  have e1 : ((Q * 30402 / 256 : Nat) : Int) = (Q : Int) * 30402 / 256 := Int.natCast_ediv ..
  have e : (((P * 16384 / 256 + Q * 30402 / 256 + 54) / 64 : Nat) : Int) = ((P : Int) * 16384 / 256 + (Q : Int) * 30402 / 256 - 15050) / 64 + 236 := by omega
  have h := ok2_spec b709FR_ok (P := P) (Q := Q) (by omega) (by omega) (by omega)
  omega

theorem g709FR_ok : allB 0 256 (fun Q => allB 0 256 (okG 3069 7670 10735 8940000 1674679 4185031 0 1511275304 0 1490730456 Q)) = true := by
  decide +kernel

theorem g709FR_worst {y u v : Int} (hu : 0 ≤ u ∧ u ≤ 255) (hv : 0 ≤ v ∧ v ≤ 255) :
    -10272424 ≤ 8940000 * ((y * 16384 / 256 - u * 3069 / 256 - v * 7670 / 256 + 5359) / 64) - 8940000 * (y - 0) + 1674679 * (u - 128) + 4185031 * (v - 128) ∧
    8940000 * ((y * 16384 / 256 - u * 3069 / 256 - v * 7670 / 256 + 5359) / 64) - 8940000 * (y - 0) + 1674679 * (u - 128) + 4185031 * (v - 128) ≤ 10272424 := by
  obtain ⟨Q, rfl⟩ := Int.eq_ofNat_of_zero_le hu.1
  obtain ⟨R, rfl⟩ := Int.eq_ofNat_of_zero_le hv.1
  have e0 : ((Q * 3069 / 256 : Nat) : Int) = (Q : Int) * 3069 / 256 := Int.natCast_ediv ..
  have e1 : ((R * 7670 / 256 : Nat) : Int) = (R : Int) * 7670 / 256 := Int.natCast_ediv ..
  have h := okG_spec g709FR_ok (Q := Q) (R := R) (by omega) (by omega)
  have e : (((10735 - (Q * 3069 / 256 + R * 7670 / 256)) / 64 : Nat) : Int) = (y * 16384 / 256 - (Q : Int) * 3069 / 256 - (R : Int) * 7670 / 256 + 5359) / 64 + 84 - y := by omega
  omega

theorem r709FRc_ok : allB 0 256 (fun P => allB 0 256 (ok2 16384 25802 32 2500 2500 3937 0 1242 0 1240 0 100000 P)) = true := by
  decide +kernel

theorem r709FRc_worst {y c : Int} (hy : 0 ≤ y ∧ y ≤ 255) (hc : 0 ≤ c ∧ c ≤ 255) :
    -1241 ≤ 2500 * ((y * 16384 / 256 + c * 25802 / 256 - 12768) / 64) - 2500 * (y - 0) - 3937 * (c - 127) ∧
    2500 * ((y * 16384 / 256 + c * 25802 / 256 - 12768) / 64) - 2500 * (y - 0) - 3937 * (c - 127) ≤ 1241 := by
  obtain ⟨P, rfl⟩ := Int.eq_ofNat_of_zero_le hy.1
  obtain ⟨Q, rfl⟩ := Int.eq_ofNat_of_zero_le hc.1
  have e0 : ((P * 16384 / 256 : Nat) : Int) = (P : Int) * 16384 / 256 := Int.natCast_ediv ..
  have e1 : ((Q * 25802 / 256 : Nat) : Int) = (Q : Int) * 25802 / 256 := Int.natCast_ediv ..
  have e : (((P * 16384 / 256 + Q * 25802 / 256 + 32) / 64 : Nat) : Int) = ((P : Int) * 16384 / 256 + (Q : Int) * 25802 / 256 - 12768) / 64 + 200 := by omega
  have h := ok2_spec r709FRc_ok (P := P) (Q := Q) (by omega) (by omega) (by omega)
  omega

theorem b709FRc_ok : allB 0 256 (fun P => allB 0 256 (ok2 16384 30402 54 2500 2500 4639 0 2102 0 408 0 100000 P)) = true := by
  decide +kernel

theorem b709FRc_worst {y c : Int} (hy : 0 ≤ y ∧ y ≤ 255) (hc : 0 ≤ c ∧ c ≤ 255) :
    -1255 ≤ 2500 * ((y * 16384 / 256 + c * 30402 / 256 - 15050) / 64) - 2500 * (y - 0) - 4639 * (c - 127) ∧
    2500 * ((y * 16384 / 256 + c * 30402 / 256 - 15050) / 64) - 2500 * (y - 0) - 4639 * (c - 127) ≤ 1255 := by
  obtain ⟨P, rfl⟩ := Int.eq_ofNat_of_zero_le hy.1
  obtain ⟨Q, rfl⟩ := Int.eq_ofNat_of_zero_le hc.1
  have e0 : ((P * 16384 / 256 : Nat) : Int) = (P : Int) * 16384 / 256 := Int.natCast_ediv ..
  have e1 : ((Q * 30402 / 256 : Nat) : Int) = (Q : Int) * 30402 / 256 := Int.natCast_ediv ..
  have e : (((P * 16384 / 256 + Q * 30402 / 256 + 54) / 64 : Nat) : Int) = ((P : Int) * 16384 / 256 + (Q : Int) * 30402 / 256 - 15050) / 64 + 236 := by omega
  have h := ok2_spec b709FRc_ok (P := P) (Q := Q) (by omega) (by omega) (by omega)
  omega

theorem g709FRc_ok : allB 0 256 (fun Q => allB 0 256 (okG 3069 7670 10735 8940000 1674679 4185031 0 1499824952 0 1490461388 Q)) = true := by
  decide +kernel

theorem g709FRc_worst {y u v : Int} (hu : 0 ≤ u ∧ u ≤ 255) (hv : 0 ≤ v ∧ v ≤ 255) :
    -4681782 ≤ 8940000 * ((y * 16384 / 256 - u * 3069 / 256 - v * 7670 / 256 + 5359) / 64) - 8940000 * (y - 0) + 1674679 * (u - 127) + 4185031 * (v - 127) ∧
    8940000 * ((y * 16384 / 256 - u * 3069 / 256 - v * 7670 / 256 + 5359) / 64) - 8940000 * (y - 0) + 1674679 * (u - 127) + 4185031 * (v - 127) ≤ 4681782 := by
  obtain ⟨Q, rfl⟩ := Int.eq_ofNat_of_zero_le hu.1
  obtain ⟨R, rfl⟩ := Int.eq_ofNat_of_zero_le hv.1
  have e0 : ((Q * 3069 / 256 : Nat) : Int) = (Q : Int) * 3069 / 256 := Int.natCast_ediv ..
  have e1 : ((R * 7670 / 256 : Nat) : Int) = (R : Int) * 7670 / 256 := Int.natCast_ediv ..
  have h := okG_spec g709FRc_ok (Q := Q) (R := R) (by omega) (by omega)
  have e : (((10735 - (Q * 3069 / 256 + R * 7670 / 256)) / 64 : Nat) : Int) = (y * 16384 / 256 - (Q : Int) * 3069 / 256 - (R : Int) * 7670 / 256 + 5359) / 64 + 84 - y := by omega
  omega

end Verif.Worst
