import Verif.Spec.Grown
import Verif.Props.Pixels
import Verif.Lemmas.Args
/-!
# C80, C81: old contents of the destination, longer buffers

C80: nothing of what the destination buffers held before the call can be seen in the image afterwards.
C81: bytes behind the buffers' ends as the program knows them make no difference.
-/

namespace Verif

open Spec (bytesAt strideOf dims painted)

variable {t : Target} {impls : InstructionSet → Impl} {cpu : Cpu} {hook : Option Int} {c c' : Call}
  {out out' : List Buf}

/-! ## C80 -/

theorem apply_hit_or_miss (ws : List Write) (p i : Nat) (m m' : Mem) :
    m.apply ws p i = m'.apply ws p i ∨ (m.apply ws p i = m p i ∧ m'.apply ws p i = m' p i) := by
  unfold Mem.apply
  induction ws generalizing m m' with
  | nil => exact .inr ⟨rfl, rfl⟩
  | cons w ws ih =>
    simp only [List.foldl_cons]
    rcases ih (m.set w) (m'.set w) with h | ⟨h, h'⟩
    · exact .inl h
    · by_cases e : p = w.plane ∧ i = w.idx
      · left
        rw [h, h', Mem.set, Mem.set, if_pos e, if_pos e]
      · right
        rw [h, h', Mem.set, Mem.set, if_neg e, if_neg e]
        exact ⟨rfl, rfl⟩

theorem bytesAt_withMem {bufs : List Buf} {m : Mem} {i : Nat} (hi : i < bufs.length) (k : Nat) :
    bytesAt (withMem bufs m) i k = m i k := by
  rw [bytesAt, withMem, List.getElem?_mapIdx, List.getElem?_eq_getElem hi]
  rfl

theorem bytesAt_none {bufs : List Buf} {i : Nat} (hi : ¬ i < bufs.length) (k : Nat) :
    bytesAt bufs i k = 0 := by
  rw [bytesAt, List.getElem?_eq_none (by omega)]

theorem bytesAt_memOf (bufs : List Buf) (i k : Nat) : memOf bufs i k = bytesAt bufs i k := by
  unfold memOf bytesAt
  cases bufs[i]? <;> rfl

theorem dstSlices_congr {db db' : List Buf} (h : db'.map Buf.len = db.map Buf.len) :
    dstSlices db' = dstSlices db := by
  apply List.ext_getElem?
  intro i
  have := congrArg (·[i]?) h
  simp only [List.getElem?_map] at this
  rw [dstSlices, dstSlices, List.getElem?_mapIdx, List.getElem?_mapIdx]
  revert this
  cases db[i]? <;> cases db'[i]? <;> simp

/-- What the destination buffers held before the call has no influence on how it ends or on the bytes
it stores: a byte is either the same after both calls, or untouched by both. This holds for every
call, also for those that are not valid, on every target and with every instruction set. -/
theorem C80_old_contents {db' : List Buf} (h : db'.map Buf.len = c.dst_buffers.map Buf.len) :
    (∀ e, convertHook t impls cpu hook c = .error e →
      convertHook t impls cpu hook { c with dst_buffers := db' } = .error e) ∧
    ∀ r out, convertHook t impls cpu hook c = .ok (r, out) →
      ∃ out', convertHook t impls cpu hook { c with dst_buffers := db' } = .ok (r, out') ∧
      ∀ i k, bytesAt out' i k = bytesAt out i k ∨
        (bytesAt out' i k = bytesAt db' i k ∧ bytesAt out i k = bytesAt c.dst_buffers i k) := by
  obtain ⟨set, tb, hT, e⟩ := hook_table t impls cpu hook
  rw [e, e, convert_image, convert_image]
  simp only [dstSlices_congr h]
  split
  · exact ⟨fun _ h => h, fun _ _ h => by cases h⟩
  · rename_i r ws _
    refine ⟨fun _ h => (by cases h), fun r' out' e => ?_⟩
    cases e
    refine ⟨_, rfl, fun i k => ?_⟩
    have hl : db'.length = c.dst_buffers.length := by
      simpa using congrArg List.length h
    by_cases hi : i < c.dst_buffers.length
    · rw [bytesAt_withMem hi, bytesAt_withMem (by omega), ← bytesAt_memOf, ← bytesAt_memOf]
      exact apply_hit_or_miss _ _ _ _ _
    · left
      rw [bytesAt_none (by simpa [withMem, hl] using hi), bytesAt_none (by simpa [withMem] using hi)]

/-- A stored image is decided by the planes that are stored, not by what the buffers held. -/
theorem painted_image {f : ImageFormat} {w h : UInt32} {strides : Option (List Nat)}
    {planes : List Spec.Plane} {bufs bufs' : List Buf} {i y j : Nat} {rc : Nat × Nat}
    (hd : (dims f.pixel_format f.num_planes.toNat w.toNat h.toNat)[i]? = some rc)
    (hp : planes.length = (dims f.pixel_format f.num_planes.toNat w.toNat h.toNat).length)
    (hi : i < bufs.length) (hi' : i < bufs'.length) (hr : rc.1 ≤ strideOf strides i rc.1)
    (hy : y < rc.2) (hj : j < rc.1) :
    bytesAt (painted f w h strides planes bufs') i (strideOf strides i rc.1 * y + j) =
      bytesAt (painted f w h strides planes bufs) i (strideOf strides i rc.1 * y + j) := by
  have hl : i < planes.length := by
    rw [hp]
    exact (List.getElem?_eq_some_iff.1 hd).1
  rw [painted_hit (List.getElem?_eq_getElem hi) hd (List.getElem?_eq_getElem hl) hr hy hj,
    painted_hit (List.getElem?_eq_getElem hi') hd (List.getElem?_eq_getElem hl) hr hy hj]

/-- A conversion produces as many planes as the destination format has. -/
theorem resultPlanes_length (S : Sem) (hv : Spec.Valid t c) :
    (S.resultPlanes c.width c.height c.src_format c.src_strides c.src_buffers c.dst_format).length =
      (dims c.dst_format.pixel_format c.dst_format.num_planes.toNat c.width.toNat
        c.height.toNat).length := by
  have hs := hv.supported
  have hp := hv.dst_legal.planes
  have hn : (c.dst_format.num_planes = 1) ↔ c.dst_format.num_planes.toNat = 1 := by
    rw [← UInt32.toNat_inj]; rfl
  revert hs hp
  unfold Sem.resultPlanes Sem.encodedPlanes dims
  cases c.src_format.pixel_format <;> cases c.dst_format.pixel_format <;>
    simp [Spec.isRgb, Spec.Supported, Spec.documented, Spec.PlanesOk, hn]
  all_goals
    intro h
    split <;> simp

/-- Buffers that are at least as long hold the same image planes. -/
theorem fits_grow {f : ImageFormat} {w h : UInt32} {strides : Option (List Nat)}
    {bufs bufs' : List Buf} (hf : Spec.Fits f w h strides bufs) (hl : bufs'.length = bufs.length)
    (hb : ∀ (i : Nat) (b b' : Buf), bufs[i]? = some b → bufs'[i]? = some b' → b.len ≤ b'.len) :
    Spec.Fits f w h strides bufs' := by
  have old : ∀ (i : Nat) (b' : Buf), bufs'[i]? = some b' → ∃ b, bufs[i]? = some b ∧ b.len ≤ b'.len := by
    intro i b' h'
    have hi : i < bufs.length := by
      rw [← hl]
      exact (List.getElem?_eq_some_iff.1 h').1
    exact ⟨_, List.getElem?_eq_getElem hi, hb i _ _ (List.getElem?_eq_getElem hi) h'⟩
  refine ⟨hf.strides_len, by rw [hl]; exact hf.bufs_len, ?_, ?_⟩
  · intro i b' rc h' hrc
    obtain ⟨b, h, hle⟩ := old i b' h'
    obtain ⟨h1, h2, h3⟩ := hf.plane i b rc h hrc
    exact ⟨h1, by omega, by omega⟩
  · intro b' h' hpf hn
    obtain ⟨b, h, hle⟩ := old 0 b' h'
    have := hf.chroma b h hpf hn
    omega

/-- Buffers of the same lengths. -/
theorem len_of_map {bufs bufs' : List Buf} (h : bufs'.map Buf.len = bufs.map Buf.len) (i : Nat)
    (b b' : Buf) (hb : bufs[i]? = some b) (hb' : bufs'[i]? = some b') : b'.len = b.len := by
  have := congrArg (·[i]?) h
  simpa [List.getElem?_map, hb, hb'] using this

theorem valid_same_lengths {db' : List Buf} (h : db'.map Buf.len = c.dst_buffers.map Buf.len)
    (hv : Spec.Valid t c) : Spec.Valid t { c with dst_buffers := db' } := by
  have hl : db'.length = c.dst_buffers.length := by simpa using congrArg List.length h
  refine { hv with
    dst_fits := fits_grow hv.dst_fits hl fun i b b' hb hb' => (len_of_map h i b b' hb hb').ge
    dst_real := ?_ }
  intro b hb
  have : b.len ∈ db'.map Buf.len := List.mem_map_of_mem hb
  rw [h, List.mem_map] at this
  obtain ⟨b', hb', e⟩ := this
  rw [← e]
  exact hv.dst_real b' hb'

/-- There is a buffer for every plane. -/
theorem plane_lt (hv : Spec.Valid t c) {i : Nat} {rc : Nat × Nat}
    (hrc : (dims c.dst_format.pixel_format c.dst_format.num_planes.toNat c.width.toNat
      c.height.toNat)[i]? = some rc) : i < c.dst_buffers.length := by
  have h1 := (List.getElem?_eq_some_iff.1 hrc).1
  have h2 := hv.dst_fits.bufs_len
  have h3 := hv.dst_legal.planes
  have h4 := hv.supported
  revert h1 h3 h4
  unfold dims
  cases c.src_format.pixel_format <;> cases c.dst_format.pixel_format <;>
    simp [Spec.Supported, Spec.documented, Spec.PlanesOk] <;> try omega
  all_goals
    intro h
    split at h <;> simp at h <;> omega

/-- C80: after a valid call every byte of the image is the same, whatever the destination buffers held
before. -/
theorem C80_image {db' : List Buf} (h : db'.map Buf.len = c.dst_buffers.map Buf.len)
    (hv : Spec.Valid t c) (ho : Stores t crate cpu c out)
    (ho' : Stores t crate cpu { c with dst_buffers := db' } out') {i k : Nat}
    (hk : c.InImage i k) : bytesAt out' i k = bytesAt out i k := by
  have hr := Runs.crate hv (ho.room hv)
  have hv' := valid_same_lengths h hv
  have hr' := Runs.crate hv' (ho'.room hv')
  rw [hr.out_eq ho, hr'.out_eq ho']
  obtain ⟨row, rows, hrc, y, hy, j, hj, rfl⟩ := hk
  have hl : db'.length = c.dst_buffers.length := by simpa using congrArg List.length h
  have hi := plane_lt hv hrc
  exact painted_image (bufs := c.dst_buffers) (bufs' := db') hrc (resultPlanes_length _ hv') hi
    (by omega) (hv.dst_fits.plane i _ _ (List.getElem?_eq_getElem hi) hrc).row_le hy hj

/-- `exEncode` with cleared destination buffers. -/
def exCleared : List Buf := [⟨8, fun _ => 0⟩, ⟨5, fun _ => 0⟩, ⟨2, fun _ => 0⟩]

example (out out' : List Buf) (ho : Stores .x64 crate sse2Cpu exEncode out)
    (ho' : Stores .x64 crate sse2Cpu { exEncode with dst_buffers := exCleared } out') :
    bytesAt out' 1 1 = bytesAt out 1 1 :=
  C80_image (by decide) exEncode_valid ho ho' ⟨2, 1, rfl, 0, by omega, 1, by omega, rfl⟩

/-- Both calls do succeed, and the old contents did differ. -/
example : (∃ out, Stores .x64 crate sse2Cpu exEncode out) ∧
    (∃ out', Stores .x64 crate sse2Cpu { exEncode with dst_buffers := exCleared } out') ∧
    bytesAt exEncode.dst_buffers 1 1 ≠ bytesAt exCleared 1 1 :=
  ⟨valid_stores exEncode_valid (exEncode_room _),
    valid_stores (valid_same_lengths (by decide) exEncode_valid) (exEncode_room _), by decide⟩

/-! ## C81 -/

theorem Spec.Grown.at {bufs bufs' : List Buf} (hg : Spec.Grown bufs bufs') {i : Nat} {b : Buf}
    (hb : bufs[i]? = some b) {k : Nat} (hk : k < b.len) : bytesAt bufs' i k = bytesAt bufs i k := by
  have hi : i < bufs'.length := by
    rw [hg.length]
    exact (List.getElem?_eq_some_iff.1 hb).1
  rw [bytesAt, bytesAt, hb, List.getElem?_eq_getElem hi]
  exact (hg.buf i b _ hb (List.getElem?_eq_getElem hi)).2 k hk

/-- There is a buffer for every plane of the source. -/
theorem source_plane_lt (hv : Spec.Valid t c) {i : Nat} {rc : Nat × Nat}
    (hrc : (dims c.src_format.pixel_format c.src_format.num_planes.toNat c.width.toNat
      c.height.toNat)[i]? = some rc) : i < c.src_buffers.length := by
  have h1 := (List.getElem?_eq_some_iff.1 hrc).1
  have h2 := hv.src_fits.bufs_len
  have h3 := hv.src_legal.planes
  have h4 := hv.supported
  revert h1 h3 h4
  unfold dims
  cases c.src_format.pixel_format <;> cases c.dst_format.pixel_format <;>
    simp [Spec.Supported, Spec.documented, Spec.PlanesOk] <;> try omega
  all_goals
    intro h
    split at h <;> simp at h <;> omega

/-- Buffers with the same bytes on the lines of the source show the same image. -/
theorem same_source_of_bytes {sb' : List Buf} (hv : Spec.Valid t c)
    (hg : ∀ i k, c.InSource i k → bytesAt sb' i k = bytesAt c.src_buffers i k) :
    SameSource c { c with src_buffers := sb' } := by
  refine ⟨rfl, fun x y hp => ?_⟩
  have hl := hv.src_legal
  split
  · rename_i hr
    have at' : ∀ k, k < Spec.bpp c.src_format.pixel_format →
        bytesAt sb' 0 (strideOf c.src_strides 0 (Spec.bpp c.src_format.pixel_format * c.width.toNat) * y +
          Spec.bpp c.src_format.pixel_format * x + k) =
        bytesAt c.src_buffers 0 (strideOf c.src_strides 0
          (Spec.bpp c.src_format.pixel_format * c.width.toNat) * y +
          Spec.bpp c.src_format.pixel_format * x + k) := by
      intro k hk
      have := Nat.mul_le_mul_left (Spec.bpp c.src_format.pixel_format) (show x + 1 ≤ c.width.toNat from hp.1)
      rw [Nat.mul_add] at this
      rw [Nat.add_assoc]
      exact hg 0 _ ⟨_, _, by rw [rgb_dims hr]; rfl, y, hp.2, _, by omega, rfl⟩
    refine ⟨(at' _ ?_).symm, (at' _ ?_).symm, (at' _ ?_).symm⟩ <;>
      (revert hr; cases c.src_format.pixel_format <;> simp [Spec.isRgb, Spec.bpp, Spec.rgbPos])
  · rename_i hr
    have hpx : x < c.width.toNat ∧ y < c.height.toNat := hp
    have pl : ∀ (i row rows j y : Nat),
        (dims c.src_format.pixel_format c.src_format.num_planes.toNat c.width.toNat
          c.height.toNat)[i]? = some (row, rows) → j < row → y < rows →
        Spec.planeAt c.src_format c.width c.height c.src_strides c.src_buffers i j y =
        Spec.planeAt c.src_format c.width c.height c.src_strides sb' i j y := by
      intro i row rows j y hd hj hy
      rw [Spec.planeAt, Spec.planeAt, Spec.plane, Spec.plane, List.getD_eq_getElem?_getD, hd]
      exact (hg i _ ⟨row, rows, hd, y, hy, j, hj, rfl⟩).symm
    have hn : (c.src_format.num_planes = 1) ↔ c.src_format.num_planes.toNat = 1 := by
      rw [← UInt32.toNat_inj]; rfl
    have hsz := hl.size
    have hpn := hl.planes
    have hsup := hv.supported
    unfold Spec.YuvAt Call.yuvIn Spec.readYuv
    simp only
    revert pl hsz hpn hsup hr
    cases c.src_format.pixel_format <;>
      simp only [Spec.isRgb, Spec.SizeOk, Spec.PlanesOk, Spec.dims, not_true_eq_false,
        IsEmpty.forall_iff, Bool.false_eq_true, not_false_eq_true, forall_const]
    · -- I444
      intro pl hpn _
      exact ⟨pl 0 _ _ x y rfl hpx.1 hpx.2, pl 1 _ _ x y rfl hpx.1 hpx.2,
        pl 2 _ _ x y rfl hpx.1 hpx.2⟩
    · -- I422
      intro pl hsz hpn hsup
      revert hsup
      cases c.dst_format.pixel_format <;> simp [Spec.Supported, Spec.documented]
    · -- I420
      intro pl hsz hpn _
      exact ⟨pl 0 _ _ x y rfl hpx.1 hpx.2,
        pl 1 _ _ (x / 2) (y / 2) rfl (by omega) (by omega),
        pl 2 _ _ (x / 2) (y / 2) rfl (by omega) (by omega)⟩
    · -- Nv12
      intro pl hsz hpn _
      by_cases h1 : c.src_format.num_planes.toNat = 1
      · simp only [hn.2 h1, if_true]
        simp only [h1, if_true] at pl
        exact ⟨pl 0 _ _ x y rfl hpx.1 (by omega),
          pl 0 _ _ (2 * (x / 2)) (c.height.toNat + y / 2) rfl (by omega) (by omega),
          pl 0 _ _ (2 * (x / 2) + 1) (c.height.toNat + y / 2) rfl (by omega) (by omega)⟩
      · simp only [mt hn.1 h1, if_false]
        simp only [h1, if_false] at pl
        exact ⟨pl 0 _ _ x y rfl hpx.1 (by omega),
          pl 1 _ _ (2 * (x / 2)) (y / 2) rfl (by omega) (by omega),
          pl 1 _ _ (2 * (x / 2) + 1) (y / 2) rfl (by omega) (by omega)⟩

/-- The source image is the same in longer buffers. -/
theorem same_source_grown {sb' : List Buf} (hv : Spec.Valid t c) (hg : Spec.Grown c.src_buffers sb') :
    SameSource c { c with src_buffers := sb' } := by
  refine same_source_of_bytes hv ?_
  rintro i _ ⟨row, rows, hd, y, hy, j, hj, rfl⟩
  have hi := source_plane_lt hv hd
  have hb := List.getElem?_eq_getElem hi
  have := fits_line (hv.src_fits.plane i _ _ hb hd) hy
  exact hg.at hb (by simp only at this; omega)

theorem valid_grown {sb' db' : List Buf} (hv : Spec.Valid t c)
    (hs : Spec.Grown c.src_buffers sb') (hd : Spec.Grown c.dst_buffers db')
    (hrs : Spec.Real t sb') (hrd : Spec.Real t db') :
    Spec.Valid t { c with src_buffers := sb', dst_buffers := db' } :=
  { hv with
    src_fits := fits_grow hv.src_fits hs.length fun i b b' h h' => (hs.buf i b b' h h').1
    dst_fits := fits_grow hv.dst_fits hd.length fun i b b' h h' => (hd.buf i b b' h h').1
    src_real := hrs
    dst_real := hrd }

theorem room_grown {set : InstructionSet} {sb' : List Buf} (hm : Spec.VectorRoom set c)
    (hs : Spec.Grown c.src_buffers sb') (db' : List Buf) :
    Spec.VectorRoom set { c with src_buffers := sb', dst_buffers := db' } := by
  intro h1 h2 b' hb'
  have h0 : 0 < c.src_buffers.length := by
    rw [← hs.length]
    exact (List.getElem?_eq_some_iff.1 hb').1
  have hb := List.getElem?_eq_getElem h0
  have h3 := hm h1 h2 _ hb
  have h4 := (hs.buf 0 _ _ hb hb').1
  revert h3
  cases set <;> simp only [Spec.GroupRoom, imp_self] <;> intro h3 hw <;> have := h3 hw <;> omega

/-- C81: a valid call that succeeds also succeeds with longer buffers. It stores the same bytes in the
first part of the destination buffers and none behind it. -/
theorem C81_longer_buffers {sb' db' : List Buf} (hv : Spec.Valid t c)
    (ho : Stores t crate cpu c out)
    (hs : Spec.Grown c.src_buffers sb') (hd : Spec.Grown c.dst_buffers db')
    (hrs : Spec.Real t sb') (hrd : Spec.Real t db') :
    ∃ out', Stores t crate cpu { c with src_buffers := sb', dst_buffers := db' } out' ∧
      Spec.Grown out out' ∧ out'.map Buf.len = db'.map Buf.len ∧
      ∀ i b k, c.dst_buffers[i]? = some b → b.len ≤ k → bytesAt out' i k = bytesAt db' i k := by
  have hm := ho.room hv
  have hv' := valid_grown hv hs hd hrs hrd
  have hr' := Runs.crate hv' (room_grown hm hs db')
  have hgs : Spec.Grown c.dst_buffers c.dst_buffers := ⟨rfl, fun i b b' h h' => by
    rw [h] at h'; cases h'; exact ⟨Nat.le_refl _, fun _ _ => rfl⟩⟩
  have hv1 : Spec.Valid t { c with src_buffers := sb' } := valid_grown hv hs hgs hrs hv.dst_real
  have hm1 : Spec.VectorRoom cpu.set { c with src_buffers := sb' } := room_grown hm hs _
  have e1 := C25_source_noninterference hv hm hv1 hm1 (same_source_grown hv hs)
  have ho1 : Stores t crate cpu { c with src_buffers := sb' } out := by
    unfold Stores at ho ⊢
    rw [e1, ho]
  have eo := (Runs.crate hv1 hm1).out_eq ho1
  -- bytes of the image
  have hit : ∀ i k, c.InImage i k →
      bytesAt ((semOf cpu.set).out { c with src_buffers := sb', dst_buffers := db' }) i k =
        bytesAt out i k := by
    rintro i _ ⟨row, rows, hrc, y, hy, j, hj, rfl⟩
    have hi := plane_lt hv hrc
    rw [eo]
    exact painted_image (bufs := c.dst_buffers) (bufs' := db') hrc (resultPlanes_length _ hv') hi
      (by rw [hd.length]; exact hi)
      (hv.dst_fits.plane i _ _ (List.getElem?_eq_getElem hi) hrc).row_le hy hj
  -- and all others
  have miss : ∀ i k, ¬ c.InImage i k →
      bytesAt ((semOf cpu.set).out { c with src_buffers := sb', dst_buffers := db' }) i k =
        bytesAt db' i k := by
    intro i k hk
    refine Runs.frame ?_
    rintro ⟨row, rows⟩ hrc y hy j hj e
    exact hk ⟨row, rows, hrc, y, hy, j, hj, e⟩
  have lens : ((semOf cpu.set).out { c with src_buffers := sb', dst_buffers := db' }).map Buf.len =
      db'.map Buf.len := by
    apply List.ext_getElem?
    intro i
    rw [List.getElem?_map, List.getElem?_map]
    exact Sem.out_len i
  have frame := C19_frame hv ho
  refine ⟨_, hr'.stores, ⟨?_, ?_⟩, lens, ?_⟩
  · have := congrArg List.length lens
    simp only [List.length_map] at this
    rw [this, hd.length, frame.1]
  · intro i b b' hb hb'
    have h1 := len_of_map lens i
    obtain ⟨hi, -⟩ := List.getElem?_eq_some_iff.1 hb
    have hi0 : i < c.dst_buffers.length := by rw [← frame.1]; exact hi
    have hi1 : i < db'.length := by rw [hd.length]; exact hi0
    have e0 := List.getElem?_eq_getElem hi0
    have e1 := List.getElem?_eq_getElem hi1
    have l0 := frame.2.1 i
    rw [hb, e0] at l0
    simp only [Option.map_some, Option.some.injEq] at l0
    have l1 := h1 _ _ e1 hb'
    have g := hd.buf i _ _ e0 e1
    refine ⟨by omega, fun k hk => ?_⟩
    have at0 : bytesAt out i k = b.bytes k := by rw [bytesAt, hb]
    have at1 : bytesAt ((semOf cpu.set).out { c with src_buffers := sb', dst_buffers := db' }) i k =
        b'.bytes k := by rw [bytesAt, hb']
    rw [← at0, ← at1]
    by_cases hin : c.InImage i k
    · exact hit i k hin
    · rw [miss i k hin, frame.2.2 i k hin]
      exact hd.at e0 (by omega)
  · intro i b k hb hk
    refine miss i k ?_
    rintro ⟨row, rows, hrc, y, hy, j, hj, rfl⟩
    have := fits_line (hv.dst_fits.plane i _ _ hb hrc) hy
    simp only at this
    omega

/-- `exEncode` with four more bytes in the source buffer and one more in the second destination
buffer. -/
example : ∃ out out', Stores .x64 crate avx2Cpu exEncode out ∧
    Stores .x64 crate avx2Cpu { exEncode with
      src_buffers := [noise 40 1], dst_buffers := [noise 8 2, noise 6 3, noise 2 4] } out' ∧
    Spec.Grown out out' := by
  obtain ⟨out, ho⟩ := valid_stores (cpu := avx2Cpu) exEncode_valid (exEncode_room _)
  have hg : ∀ {n n' k}, n ≤ n' → n ≤ (noise n' k).len ∧ ∀ i, i < n → (noise n' k).bytes i =
      (noise n k).bytes i := fun h => ⟨h, fun _ _ => rfl⟩
  obtain ⟨out', h1, h2, -⟩ := C81_longer_buffers (sb' := [noise 40 1])
    (db' := [noise 8 2, noise 6 3, noise 2 4]) exEncode_valid ho
    ⟨rfl, by
      intro i b b' h h'
      rcases i with _ | i
      · cases h; cases h'; exact hg (by decide)
      · simp [exEncode] at h⟩
    ⟨rfl, by
      intro i b b' h h'
      rcases i with _ | _ | _ | i
      · cases h; cases h'; exact hg (by decide)
      · cases h; cases h'; exact hg (by decide)
      · cases h; cases h'; exact hg (by decide)
      · simp [exEncode] at h⟩
    (by unfold Spec.Real; decide) (by unfold Spec.Real; decide)
  exact ⟨out, out', ho, h1, h2⟩

end Verif
