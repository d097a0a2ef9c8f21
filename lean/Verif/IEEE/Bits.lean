import Verif.IEEE.Fl
/-!
# The formats are those of the bit patterns

IEEE-754 §3.4: the data of `f32` and `f64` as 32- and 64-bit words (`f32::from_bits`). The theorems say that the
abstract data `Fl binary32` and `Fl binary64` used by the float layer are exactly what the words stand for: every word
is a datum of the format, every datum has a word, and only NaN has more than one. So the precisions, exponent ranges,
subnormals and the overflow threshold of `binary32` and `binary64` are the ones of the hardware formats. Nothing here
comes from the crate.
-/

open Classical

namespace VecMath

namespace Fmt
variable (F : Fmt)

/-- The magnitude with biased exponent `E` and trailing significand `M` (`E = 0`: zero or subnormal). -/
noncomputable def mag (E M : ℕ) : ℝ :=
  if E = 0 then M * 2 ^ F.emin else (2 ^ (F.p - 1) + M) * 2 ^ (F.emin + E - 1)
/-- The datum with sign bit `s`, biased exponent `E` of a field of `w` bits, and trailing significand `M`. -/
noncomputable def decode (w : ℕ) (s : Bool) (E M : ℕ) : Val :=
  if E = 2 ^ w - 1 then (if M = 0 then .inf s else .nan)
  else .mk s (if s then - F.mag E M else F.mag E M)

/-- The format has an exponent field of `w` bits, as in the interchange formats. -/
structure Field (w : ℕ) : Prop where
  pos : 2 ≤ w
  max : F.emax = 2 ^ (w - 1)
  min : F.emin = 3 - 2 ^ (w - 1) - F.p

variable {F}

theorem mag_nonneg (E M : ℕ) : 0 ≤ F.mag E M := by unfold mag; split_ifs <;> positivity
theorem mag_eq_zero {E M : ℕ} : F.mag E M = 0 ↔ E = 0 ∧ M = 0 := by
  unfold mag
  split_ifs with h
  · simp [h, (z_pos F.emin).ne']
  · simp only [h, false_and, iff_false]; positivity
theorem has_mag {E M : ℕ} (hM : M < 2 ^ (F.p - 1)) : F.Has (F.mag E M) := by
  have hp := F.hp
  have hM' : (M : ℤ) < 2 ^ (F.p - 1) := by exact_mod_cast hM
  have e : (2 : ℤ) ^ F.p = 2 * 2 ^ (F.p - 1) := by rw [← pow_succ']; congr 1; omega
  unfold mag
  split_ifs with h
  · exact ⟨M, F.emin, le_rfl, by rw [abs_of_nonneg (by positivity), e]; have : (0:ℤ) < 2 ^ (F.p - 1) := by positivity
                                 omega, by push_cast; rfl⟩
  · refine ⟨2 ^ (F.p - 1) + M, F.emin + E - 1, by omega, ?_, by push_cast; rfl⟩
    rw [abs_of_nonneg (by positivity), e]; omega
/-- Magnitudes are ordered like the words. -/
theorem mag_lt_zpow {E M : ℕ} (hM : M < 2 ^ (F.p - 1)) : F.mag E M < 2 ^ ((F.p : ℤ) - 1 + F.emin + E) := by
  have hp := F.hp
  have hM' : (M : ℝ) < 2 ^ (F.p - 1) := by exact_mod_cast hM
  have e : (2 : ℝ) ^ (F.p - 1) = 2 ^ ((F.p : ℤ) - 1) := by
    rw [← zpow_natCast]; congr 1; omega
  unfold mag
  split_ifs with h
  · subst h
    rw [Nat.cast_zero, add_zero, z_add, ← e]
    exact mul_lt_mul_of_pos_right hM' (z_pos _)
  · have : (2 : ℝ) ^ ((F.p : ℤ) - 1 + F.emin + E) = (2 ^ (F.p - 1) + 2 ^ (F.p - 1)) * 2 ^ (F.emin + E - 1) := by
      rw [← two_mul, e, ← zpow_one_add₀ (by norm_num), ← z_add]; congr 1; ring
    rw [this]
    exact mul_lt_mul_of_pos_right (by linarith) (z_pos _)
theorem zpow_le_mag {E M : ℕ} (hE : E ≠ 0) : 2 ^ ((F.p : ℤ) - 1 + F.emin + E - 1) ≤ F.mag E M := by
  have hp := F.hp
  have e : (2 : ℝ) ^ (F.p - 1) = 2 ^ ((F.p : ℤ) - 1) := by
    rw [← zpow_natCast]; congr 1; omega
  unfold mag
  rw [if_neg hE, show (F.p : ℤ) - 1 + F.emin + E - 1 = ((F.p : ℤ) - 1) + (F.emin + E - 1) by ring, z_add, ← e]
  exact mul_le_mul_of_nonneg_right (by simp) (z_pos _).le
theorem mag_lt_of_lt {E M E' M' : ℕ} (hM : M < 2 ^ (F.p - 1)) (h : E < E') : F.mag E M < F.mag E' M' := by
  refine (mag_lt_zpow hM).trans_le ((z_le ?_).trans (zpow_le_mag (by omega)))
  omega
theorem mag_inj {E M E' M' : ℕ} (hM : M < 2 ^ (F.p - 1)) (hM' : M' < 2 ^ (F.p - 1)) (h : F.mag E M = F.mag E' M') :
    E = E' ∧ M = M' := by
  rcases lt_trichotomy E E' with hl | rfl | hl
  · exact absurd h (mag_lt_of_lt hM hl).ne
  · refine ⟨rfl, ?_⟩
    unfold mag at h
    split_ifs at h with h0
    · exact_mod_cast mul_right_cancel₀ (z_pos F.emin).ne' h
    · have := mul_right_cancel₀ (z_pos _).ne' h
      exact_mod_cast add_left_cancel this
  · exact absurd h (mag_lt_of_lt hM' hl).ne'
theorem mag_fits {w : ℕ} (hw : F.Field w) {E M : ℕ} (hM : M < 2 ^ (F.p - 1)) (hE : E + 1 < 2 ^ w) :
    F.mag E M < 2 ^ F.emax := by
  refine (mag_lt_zpow hM).trans_le (z_le ?_)
  have h1 := hw.min
  have h2 := hw.max
  have h3 : (2 : ℤ) ^ w = 2 * 2 ^ (w - 1) := by rw [← pow_succ']; congr 1; have := hw.pos; omega
  have hE' : ((E : ℤ)) + 1 < 2 ^ w := by exact_mod_cast hE
  omega
/-- Every magnitude of the format is that of a word. -/
theorem exists_mag {w : ℕ} (hw : F.Field w) {x : ℝ} (h0 : 0 < x) (hx : F.Has x) (hf : x < 2 ^ F.emax) :
    ∃ E M : ℕ, E + 1 < 2 ^ w ∧ M < 2 ^ (F.p - 1) ∧ F.mag E M = x := by
  have hp := F.hp
  have h1 := hw.min
  have h2 := hw.max
  have h3 : (2 : ℤ) ^ w = 2 * 2 ^ (w - 1) := by rw [← pow_succ']; congr 1; have := hw.pos; omega
  have e : (2 : ℝ) ^ (F.p - 1) = 2 ^ ((F.p : ℤ) - 1) := by
    rw [← zpow_natCast]; congr 1; omega
  have hr := F.rnd_of_has hx
  unfold rnd at hr
  have hq0 := F.emin_le_ex x
  have habs := F.abs_lt_ex x
  have hexd : F.ex x = max (Int.log 2 |x| - (F.p - 1)) F.emin := rfl
  generalize F.ex x = q at hr hq0 habs hexd
  set n := rne (x / 2 ^ q) with hn
  have hz := z_pos (q)
  have hn' : (n : ℝ) = x / 2 ^ q := by rw [eq_div_iff hz.ne']; exact hr
  have npos : 0 < n := by
    have : (0 : ℝ) < n := by rw [hn']; positivity
    exact_mod_cast this
  have nlt : n < 2 ^ F.p := by
    have := habs
    rw [← hn', abs_of_pos (by exact_mod_cast npos), zpow_natCast] at this
    exact_mod_cast this
  have hpow : (2 : ℤ) ^ F.p = 2 * 2 ^ (F.p - 1) := by rw [← pow_succ']; congr 1; omega
  obtain ⟨k, hk⟩ := Int.eq_ofNat_of_zero_le npos.le
  rw [hk] at hr nlt
  rcases lt_or_ge k (2 ^ (F.p - 1)) with hlt | hge
  · -- subnormal
    have hex : q = F.emin := by
      by_contra hne
      have hgt : F.emin < q := lt_of_le_of_ne (hq0) (Ne.symm hne)
      have hlog : q = Int.log 2 |x| - (F.p - 1) := by
        rw [hexd] at hgt ⊢
        rcases max_choice (Int.log 2 |x| - (F.p - 1)) F.emin with h | h
        · exact h
        · rw [h] at hgt; exact absurd hgt (lt_irrefl _)
      have hb := log_le h0.ne'
      rw [abs_of_pos h0, show Int.log 2 x = ((F.p : ℤ) - 1) + q by rw [hlog, abs_of_pos h0]; ring, z_add, ← e,
        ← hr] at hb
      have hb' := le_of_mul_le_mul_right hb hz
      have : (2 ^ (F.p - 1) : ℕ) ≤ k := by exact_mod_cast hb'
      omega
    refine ⟨0, k, ?_, hlt, ?_⟩
    · have : 2 ^ 2 ≤ 2 ^ w := Nat.pow_le_pow_right (by norm_num) hw.pos
      omega
    · unfold mag; rw [if_pos rfl, ← hex, ← hr]; norm_cast
  · have hEpos : 0 ≤ q - F.emin := by omega
    obtain ⟨d, hd⟩ := Int.eq_ofNat_of_zero_le hEpos
    have hxe : q = F.emin + d := by omega
    have hup : ((F.p : ℤ) - 1) + q < F.emax := by
      by_contra hc
      push Not at hc
      have a1 := z_le hc
      rw [z_add, ← e] at a1
      have : (2 : ℝ) ^ (F.p - 1) * 2 ^ q ≤ x := by
        rw [← hr]
        refine mul_le_mul_of_nonneg_right ?_ hz.le
        exact_mod_cast hge
      linarith
    refine ⟨d + 1, k - 2 ^ (F.p - 1), ?_, ?_, ?_⟩
    · have : ((d : ℤ) + 1 + 1) < 2 ^ w := by omega
      exact_mod_cast this
    · have : (k : ℤ) < 2 * 2 ^ (F.p - 1) := by rw [← hpow]; exact nlt
      have : k < 2 * 2 ^ (F.p - 1) := by exact_mod_cast this
      omega
    · unfold mag
      rw [if_neg (by omega)]
      have : F.emin + ((d + 1 : ℕ) : ℤ) - 1 = q := by push_cast; omega
      rw [this, ← hr, Nat.cast_sub hge]
      push_cast
      ring

/-! ### Words as data -/

theorem decode_ok {w : ℕ} (hw : F.Field w) {s : Bool} {E M : ℕ} (hE : E < 2 ^ w) (hM : M < 2 ^ (F.p - 1)) :
    F.rounding.Ok (F.decode w s E M) := by
  unfold decode
  split_ifs with h1 h2
  · exact Rounding.ok_inf _ _
  · exact Rounding.ok_nan _
  · refine Rounding.ok_mk _ _ ⟨F.rnd_of_has (has_mag hM).neg, ?_⟩
    show |_| < _
    rw [abs_neg, abs_of_nonneg (mag_nonneg _ _)]; exact mag_fits hw hM (by omega)
  · refine Rounding.ok_mk _ _ ⟨F.rnd_of_has (has_mag hM), ?_⟩
    show |_| < _
    rw [abs_of_nonneg (mag_nonneg _ _)]; exact mag_fits hw hM (by omega)
theorem exists_decode {w : ℕ} (hw : F.Field w) {v : Val} (hv : F.rounding.Ok v) :
    ∃ (s : Bool) (E M : ℕ), E < 2 ^ w ∧ M < 2 ^ (F.p - 1) ∧ F.decode w s E M = v := by
  have hp := F.hp
  have hw4 : 2 ^ 2 ≤ 2 ^ w := Nat.pow_le_pow_right (by norm_num) hw.pos
  have hp2 : 2 ^ 1 ≤ 2 ^ (F.p - 1) := Nat.pow_le_pow_right (by norm_num) (by omega)
  have h0 : ¬ (0 = 2 ^ w - 1) := by omega
  rcases v with _ | s | _ | x
  · exact ⟨false, 2 ^ w - 1, 1, by omega, by omega, by simp [decode]⟩
  · exact ⟨s, 2 ^ w - 1, 0, by omega, by omega, by simp [decode]⟩
  · exact ⟨true, 0, 0, by omega, by omega, by simp [decode, mag, h0, Val.mk, Val.mkZero]⟩
  · obtain ⟨hr, hf⟩ := hv x rfl
    have hh := F.rnd_eq_iff.1 hr
    rcases lt_trichotomy x 0 with hx | rfl | hx
    · obtain ⟨E, M, hE, hM, e⟩ := exists_mag hw (x := -x) (by linarith) hh.neg ((le_abs_self _).trans_lt (by rw [abs_neg]; exact hf))
      refine ⟨true, E, M, by omega, hM, ?_⟩
      rw [decode, if_neg (by omega), e]
      simp [Val.mk, hx.ne]
    · exact ⟨false, 0, 0, by omega, by omega, by simp [decode, mag, h0, Val.mk, Val.mkZero]⟩
    · obtain ⟨E, M, hE, hM, e⟩ := exists_mag hw hx hh ((le_abs_self _).trans_lt hf)
      refine ⟨false, E, M, by omega, hM, ?_⟩
      rw [decode, if_neg (by omega), e]
      simp [Val.mk, hx.ne']
theorem decode_inj {w : ℕ} (hw : F.Field w) {s s' : Bool} {E M E' M' : ℕ} (hE : E < 2 ^ w) (hM : M < 2 ^ (F.p - 1))
    (hE' : E' < 2 ^ w) (hM' : M' < 2 ^ (F.p - 1)) (h : F.decode w s E M = F.decode w s' E' M')
    (hn : F.decode w s E M ≠ .nan) : s = s' ∧ E = E' ∧ M = M' := by
  unfold decode at h hn
  by_cases h1 : E = 2 ^ w - 1
  · by_cases h2 : M = 0
    · rw [if_pos h1, if_pos h2] at h
      by_cases h3 : E' = 2 ^ w - 1
      · by_cases h4 : M' = 0
        · rw [if_pos h3, if_pos h4] at h
          exact ⟨Val.inf.inj h, h1.trans h3.symm, h2.trans h4.symm⟩
        · rw [if_pos h3, if_neg h4] at h; exact absurd h (by simp)
      · rw [if_neg h3] at h
        unfold Val.mk Val.mkZero at h
        split_ifs at h
    · rw [if_pos h1, if_neg h2] at hn; exact absurd rfl hn
  · rw [if_neg h1] at h
    by_cases h3 : E' = 2 ^ w - 1
    · rw [if_pos h3] at h
      unfold Val.mk Val.mkZero at h
      split_ifs at h
    · rw [if_neg h3] at h
      have m1 := mag_nonneg (F := F) E M
      have m2 := mag_nonneg (F := F) E' M'
      have key : s = s' ∧ F.mag E M = F.mag E' M' := by
        unfold Val.mk Val.mkZero at h
        cases s <;> cases s' <;> simp at h <;> split_ifs at h <;> simp_all
        all_goals
          have hpos := lt_of_le_of_ne m2 (Ne.symm ‹¬ F.mag E' M' = 0›)
          linarith
      exact ⟨key.1, mag_inj hM hM' key.2⟩
end Fmt

theorem field32 : binary32.Field 8 := ⟨by norm_num, by norm_num [binary32], by norm_num [binary32]⟩
theorem field64 : binary64.Field 11 := ⟨by norm_num, by norm_num [binary64], by norm_num [binary64]⟩

/-- What the 32-bit word `b` stands for (`f32::from_bits`): sign bit 31, exponent bits 30 to 23, significand bits 22
to 0. -/
noncomputable def fromBits32 (b : UInt32) : Val :=
  binary32.decode 8 (decide (b.toNat / 2 ^ 31 = 1)) (b.toNat / 2 ^ 23 % 2 ^ 8) (b.toNat % 2 ^ 23)
/-- What the 64-bit word `b` stands for (`f64::from_bits`): sign bit 63, exponent bits 62 to 52, significand bits 51
to 0. -/
noncomputable def fromBits64 (b : UInt64) : Val :=
  binary64.decode 11 (decide (b.toNat / 2 ^ 63 = 1)) (b.toNat / 2 ^ 52 % 2 ^ 11) (b.toNat % 2 ^ 52)

/-- The data of `F32` are exactly those of the 32-bit words. -/
theorem range_fromBits32 : Set.range fromBits32 = Set.range (Fl.toVal : F32 → Val) := by
  ext v
  constructor
  · rintro ⟨b, rfl⟩
    exact ⟨⟨_, Fmt.decode_ok field32 (Nat.mod_lt _ (by norm_num)) (Nat.mod_lt _ (by norm_num))⟩, rfl⟩
  · rintro ⟨a, rfl⟩
    obtain ⟨s, E, M, hE, hM, e⟩ := Fmt.exists_decode field32 a.ok
    have hM : M < 2 ^ 23 := hM
    have hE : E < 2 ^ 8 := hE
    have hlt : s.toNat * 2 ^ 31 + E * 2 ^ 23 + M < 2 ^ 32 := by cases s <;> simp only [Bool.toNat] <;> norm_num at * <;> omega
    refine ⟨UInt32.ofNat (s.toNat * 2 ^ 31 + E * 2 ^ 23 + M), ?_⟩
    rw [fromBits32, UInt32.toNat_ofNat_of_lt' hlt, ← e]
    congr 1
    · cases s <;> simp only [Bool.toNat] <;> norm_num at * <;> omega
    · cases s <;> simp only [Bool.toNat] <;> norm_num at * <;> omega
    · cases s <;> simp only [Bool.toNat] <;> norm_num at * <;> omega
/-- Only NaN has more than one word. -/
theorem fromBits32_inj {a b : UInt32} (h : fromBits32 a = fromBits32 b) (hn : fromBits32 a ≠ .nan) : a = b := by
  obtain ⟨h1, h2, h3⟩ := Fmt.decode_inj field32 (Nat.mod_lt _ (by norm_num)) (Nat.mod_lt _ (by norm_num))
    (Nat.mod_lt _ (by norm_num)) (Nat.mod_lt _ (by norm_num)) h hn
  rw [decide_eq_decide] at h1
  change a.toNat % 2 ^ 23 = b.toNat % 2 ^ 23 at h3
  have ha := a.toNat_lt
  have hb := b.toNat_lt
  clear h hn
  apply UInt32.toNat_inj.1
  omega
/-- The data of `F64` are exactly those of the 64-bit words. -/
theorem range_fromBits64 : Set.range fromBits64 = Set.range (Fl.toVal : F64 → Val) := by
  ext v
  constructor
  · rintro ⟨b, rfl⟩
    exact ⟨⟨_, Fmt.decode_ok field64 (Nat.mod_lt _ (by norm_num)) (Nat.mod_lt _ (by norm_num))⟩, rfl⟩
  · rintro ⟨a, rfl⟩
    obtain ⟨s, E, M, hE, hM, e⟩ := Fmt.exists_decode field64 a.ok
    have hM : M < 2 ^ 52 := hM
    have hE : E < 2 ^ 11 := hE
    have hlt : s.toNat * 2 ^ 63 + E * 2 ^ 52 + M < 2 ^ 64 := by cases s <;> simp only [Bool.toNat] <;> norm_num at * <;> omega
    refine ⟨UInt64.ofNat (s.toNat * 2 ^ 63 + E * 2 ^ 52 + M), ?_⟩
    rw [fromBits64, UInt64.toNat_ofNat_of_lt' hlt, ← e]
    congr 1
    · cases s <;> simp only [Bool.toNat] <;> norm_num at * <;> omega
    · cases s <;> simp only [Bool.toNat] <;> norm_num at * <;> omega
    · cases s <;> simp only [Bool.toNat] <;> norm_num at * <;> omega
/-- Only NaN has more than one word. -/
theorem fromBits64_inj {a b : UInt64} (h : fromBits64 a = fromBits64 b) (hn : fromBits64 a ≠ .nan) : a = b := by
  obtain ⟨h1, h2, h3⟩ := Fmt.decode_inj field64 (Nat.mod_lt _ (by norm_num)) (Nat.mod_lt _ (by norm_num))
    (Nat.mod_lt _ (by norm_num)) (Nat.mod_lt _ (by norm_num)) h hn
  rw [decide_eq_decide] at h1
  change a.toNat % 2 ^ 52 = b.toNat % 2 ^ 52 at h3
  have ha := a.toNat_lt
  have hb := b.toNat_lt
  clear h hn
  apply UInt64.toNat_inj.1
  omega

/-- Some well-known words: 1.0, -0.0, the largest finite `f32`, the smallest subnormal. -/
example : fromBits32 0x3F800000 = .fin 1 := by
  rw [fromBits32, show UInt32.toNat 0x3F800000 = 0x3F800000 from rfl]
  norm_num [ Fmt.decode, Fmt.mag, binary32, Val.mk]
example : fromBits32 0x80000000 = .nzero := by
  rw [fromBits32, show UInt32.toNat 0x80000000 = 0x80000000 from rfl]
  norm_num [ Fmt.decode, Fmt.mag, binary32, Val.mk, Val.mkZero]
example : fromBits32 0x7F7FFFFF = .fin (2 ^ 128 - 2 ^ 104) := by
  rw [fromBits32, show UInt32.toNat 0x7F7FFFFF = 0x7F7FFFFF from rfl]
  norm_num [ Fmt.decode, Fmt.mag, binary32, Val.mk]
example : fromBits32 0x00000001 = .fin (2 ^ (-149 : ℤ)) := by
  rw [fromBits32, show UInt32.toNat 0x00000001 = 0x00000001 from rfl]
  norm_num [ Fmt.decode, Fmt.mag, binary32, Val.mk]
example : fromBits32 0xFF800000 = .inf true := by
  rw [fromBits32, show UInt32.toNat 0xFF800000 = 0xFF800000 from rfl]
  norm_num [ Fmt.decode]

end VecMath
