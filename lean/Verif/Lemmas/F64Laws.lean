import Verif.Lemmas.XtLaws
import Mathlib.Algebra.Order.Field.Power
import Mathlib.Data.Rat.Cast.Order
import Mathlib.Tactic.FieldSimp
import Mathlib.Tactic.Ring
import Mathlib.Data.Nat.Log

/-! binary64 rounding is monotone; `F64` satisfies `LawfulArith`. -/

namespace Limbo.F64

/-- `roundEven q` is an integer within 1/2 of `q`, written without division. -/
theorem roundEven_spec (q : ℚ) (hq : 0 ≤ q) :
    2 * (roundEven q : ℚ) ≤ 2 * q + 1 ∧ 2 * q - 1 ≤ 2 * (roundEven q : ℚ) := by
  have hn : (0:ℤ) ≤ q.num := Rat.num_nonneg.2 hq
  obtain ⟨n, hnn⟩ := Int.eq_ofNat_of_zero_le hn
  have hqn : q = (n : ℚ) / q.den := by
    conv_lhs => rw [← Rat.num_div_den q]
    rw [hnn]; simp
  have hd : (0:ℚ) < q.den := by exact_mod_cast q.den_pos
  set d := q.den with hdd
  have hdn : 0 < d := q.den_pos
  have hmod : d * (n / d) + n % d = n := Nat.div_add_mod n d
  have hmodQ : (d:ℚ) * ((n / d : ℕ) : ℚ) + ((n % d : ℕ) : ℚ) = n := by exact_mod_cast hmod
  have hlt : n % d < d := Nat.mod_lt _ hdn
  have key : q = ((n / d : ℕ) : ℚ) + ((n % d : ℕ) : ℚ) / d := by
    rw [hqn]; field_simp; linarith
  have hr0 : (0:ℚ) ≤ ((n % d : ℕ) : ℚ) / d := by positivity
  have hre : roundEven q = (if 2 * (n % d) < d then n / d else if d < 2 * (n % d) then n / d + 1
      else if (n / d) % 2 = 0 then n / d else n / d + 1) := by
    unfold roundEven; rw [hnn]; simp [hdd]
  rw [hre]
  have hr1 : ((n % d : ℕ) : ℚ) / d < 1 := by
    rw [div_lt_one hd]; exact_mod_cast hlt
  split_ifs with h1 h2 h3
  · have : 2 * (((n % d : ℕ) : ℚ) / d) < 1 := by
      rw [← mul_div_assoc, div_lt_one hd]; exact_mod_cast h1
    constructor <;> linarith
  · have : 1 < 2 * (((n % d : ℕ) : ℚ) / d) := by
      rw [← mul_div_assoc, one_lt_div hd]; exact_mod_cast h2
    push_cast
    constructor <;> linarith
  all_goals
    have he : 2 * (n % d) = d := by omega
    have : 2 * (((n % d : ℕ) : ℚ) / d) = 1 := by
      rw [← mul_div_assoc, div_eq_one_iff_eq hd.ne']; exact_mod_cast he
    push_cast
    constructor <;> linarith

theorem roundEven_nat (n : ℕ) : roundEven (n : ℚ) = n := by
  simp [roundEven, Nat.mod_one]

/-- Ties go to the even neighbour. -/
theorem roundEven_tie (q : ℚ) (hq : 0 ≤ q) (k : ℕ) (h : 2 * q = 2 * k + 1) :
    roundEven q = if k % 2 = 0 then k else k + 1 := by
  have hn : (0:ℤ) ≤ q.num := Rat.num_nonneg.2 hq
  obtain ⟨n, hnn⟩ := Int.eq_ofNat_of_zero_le hn
  have hqn : q = (n : ℚ) / q.den := by
    conv_lhs => rw [← Rat.num_div_den q]
    rw [hnn]; simp
  have hd : (0:ℚ) < q.den := by exact_mod_cast q.den_pos
  have h2 : 2 * n = (2 * k + 1) * q.den := by
    have : 2 * (n:ℚ) = (2 * k + 1) * q.den := by
      rw [← h, hqn]; field_simp
      rw [← hqn]
    exact_mod_cast this
  have hdn : 0 < q.den := q.den_pos
  unfold roundEven
  rw [hnn]
  simp only [Int.toNat_natCast]
  have hdiv : n / q.den = k := by
    apply Nat.div_eq_of_lt_le
    · nlinarith
    · nlinarith
  have hm : 2 * (n % q.den) = q.den := by
    have := Nat.div_add_mod n q.den
    rw [hdiv] at this
    nlinarith
  rw [hdiv, hm]; simp

theorem roundEven_mono {p q : ℚ} (hp : 0 ≤ p) (h : p ≤ q) : roundEven p ≤ roundEven q := by
  obtain ⟨h1, h2⟩ := roundEven_spec p hp
  obtain ⟨h3, h4⟩ := roundEven_spec q (hp.trans h)
  by_contra hlt
  push Not at hlt
  have hlt' : (roundEven q : ℚ) + 1 ≤ roundEven p := by exact_mod_cast hlt
  have e1 : 2 * p = 2 * (roundEven q : ℚ) + 1 := by linarith
  have e2 : 2 * q = 2 * (roundEven q : ℚ) + 1 := by linarith
  have : p = q := by linarith
  rw [this] at hlt; exact lt_irrefl _ hlt

theorem ilog2_spec {q : ℚ} (hq : 0 < q) : (2:ℚ) ^ (ilog2 q) ≤ q ∧ q < (2:ℚ) ^ (ilog2 q + 1) := by
  have hn : (0:ℤ) < q.num := Rat.num_pos.2 hq
  obtain ⟨n, hnn⟩ := Int.eq_ofNat_of_zero_le hn.le
  have hn0 : n ≠ 0 := by rintro rfl; rw [hnn] at hn; simp at hn
  have hqn : q = (n : ℚ) / q.den := by
    conv_lhs => rw [← Rat.num_div_den q]
    rw [hnn]; simp
  have hd : (0:ℚ) < q.den := by exact_mod_cast q.den_pos
  have hd0 : q.den ≠ 0 := q.den_pos.ne'
  have a1 : 2 ^ (Nat.log2 n) ≤ n := Nat.log2_self_le hn0
  have a2 : n < 2 ^ (Nat.log2 n + 1) := Nat.lt_log2_self
  have b1 : 2 ^ (Nat.log2 q.den) ≤ q.den := Nat.log2_self_le hd0
  have b2 : q.den < 2 ^ (Nat.log2 q.den + 1) := Nat.lt_log2_self
  have a1' : (2:ℚ) ^ (Nat.log2 n) ≤ n := by exact_mod_cast a1
  have a2' : (n:ℚ) < 2 ^ (Nat.log2 n + 1) := by exact_mod_cast a2
  have b1' : (2:ℚ) ^ (Nat.log2 q.den) ≤ q.den := by exact_mod_cast b1
  have b2' : (q.den:ℚ) < 2 ^ (Nat.log2 q.den + 1) := by exact_mod_cast b2
  -- bounds for e
  set e : ℤ := (Nat.log2 n : ℤ) - (Nat.log2 q.den : ℤ) with he
  have lo : (2:ℚ) ^ (e - 1) < q := by
    rw [hqn, lt_div_iff₀ hd]
    have : (2:ℚ) ^ (e - 1) * 2 ^ (Nat.log2 q.den + 1) = 2 ^ (Nat.log2 n) := by
      rw [← zpow_natCast, ← zpow_natCast, ← zpow_add₀ (by norm_num)]
      congr 1; push_cast; omega
    have h2 : (0:ℚ) < (2:ℚ) ^ (e - 1) := by positivity
    nlinarith
  have hi : q < (2:ℚ) ^ (e + 1) := by
    rw [hqn, div_lt_iff₀ hd]
    have : (2:ℚ) ^ (e + 1) * 2 ^ (Nat.log2 q.den) = 2 ^ (Nat.log2 n + 1) := by
      rw [← zpow_natCast, ← zpow_natCast, ← zpow_add₀ (by norm_num)]
      congr 1; push_cast; omega
    have h2 : (0:ℚ) < (2:ℚ) ^ (e + 1) := by positivity
    nlinarith
  have hun : ilog2 q = if (2 : ℚ) ^ e ≤ q then e else e - 1 := by
    unfold ilog2; rw [hnn]; simp [he]
  rw [hun]
  split_ifs with h
  · exact ⟨h, hi⟩
  · refine ⟨lo.le, ?_⟩
    push Not at h
    simpa using h

theorem ilog2_mono {p q : ℚ} (hp : 0 < p) (h : p ≤ q) : ilog2 p ≤ ilog2 q := by
  obtain ⟨h1, _⟩ := ilog2_spec hp
  obtain ⟨_, h4⟩ := ilog2_spec (hp.trans_le h)
  have : (2:ℚ) ^ (ilog2 p) < (2:ℚ) ^ (ilog2 q + 1) := by linarith
  have := (zpow_lt_zpow_iff_right₀ (by norm_num : (1:ℚ) < 2)).1 this
  omega

theorem rndPos_nonneg (q : ℚ) : 0 ≤ rndPos q := by
  unfold rndPos; positivity

/-- Exponent of the unit in the last place. -/
def ulpExp (q : ℚ) : ℤ := max (ilog2 q - 52) (-1074)

theorem rndPos_eq (q : ℚ) : rndPos q = (roundEven (q / (2 : ℚ) ^ ulpExp q) : ℚ) * (2 : ℚ) ^ ulpExp q := rfl

theorem rndPos_mono {p q : ℚ} (hp : 0 < p) (h : p ≤ q) : rndPos p ≤ rndPos q := by
  have hq := hp.trans_le h
  have hm := ilog2_mono hp h
  rw [rndPos_eq, rndPos_eq]
  have hu : ulpExp p ≤ ulpExp q := by unfold ulpExp; omega
  rcases hu.eq_or_lt with he | hlt
  · rw [he]
    have hpos : (0:ℚ) < (2:ℚ) ^ ulpExp q := by positivity
    have : roundEven (p / (2:ℚ) ^ ulpExp q) ≤ roundEven (q / (2:ℚ) ^ ulpExp q) :=
      roundEven_mono (by positivity) (by gcongr)
    have : (roundEven (p / (2:ℚ) ^ ulpExp q) : ℚ) ≤ roundEven (q / (2:ℚ) ^ ulpExp q) := by exact_mod_cast this
    gcongr
  · -- p below the power of two 2^k, q above it
    have hk : ulpExp q = ilog2 q - 52 := by unfold ulpExp at *; omega
    have hpk : ilog2 p + 1 ≤ ilog2 q := by unfold ulpExp at hlt; omega
    obtain ⟨_, p2⟩ := ilog2_spec hp
    obtain ⟨q1, _⟩ := ilog2_spec hq
    set k := ilog2 q with hkdef
    have hple : p ≤ (2:ℚ) ^ k := p2.le.trans (zpow_le_zpow_right₀ (by norm_num) hpk)
    have hA : (roundEven (p / (2:ℚ) ^ ulpExp p) : ℚ) * (2:ℚ) ^ ulpExp p ≤ (2:ℚ) ^ k := by
      obtain ⟨m, hm'⟩ := Int.eq_ofNat_of_zero_le (show (0:ℤ) ≤ k - ulpExp p by omega)
      have e1 : (2:ℚ) ^ k / (2:ℚ) ^ ulpExp p = ((2 ^ m : ℕ) : ℚ) := by
        rw [← zpow_sub₀ (by norm_num), hm']; push_cast; exact zpow_natCast 2 m
      have hle : roundEven (p / (2:ℚ) ^ ulpExp p) ≤ roundEven ((2:ℚ) ^ k / (2:ℚ) ^ ulpExp p) :=
        roundEven_mono (by positivity) (by gcongr)
      rw [e1, roundEven_nat] at hle
      have hle' : (roundEven (p / (2:ℚ) ^ ulpExp p) : ℚ) ≤ ((2 ^ m : ℕ) : ℚ) := by exact_mod_cast hle
      calc _ ≤ ((2 ^ m : ℕ) : ℚ) * (2:ℚ) ^ ulpExp p := by gcongr
        _ = _ := by rw [← e1]; field_simp
    have hB : (2:ℚ) ^ k ≤ (roundEven (q / (2:ℚ) ^ ulpExp q) : ℚ) * (2:ℚ) ^ ulpExp q := by
      have e1 : (2:ℚ) ^ k / (2:ℚ) ^ ulpExp q = ((2 ^ 52 : ℕ) : ℚ) := by
        rw [← zpow_sub₀ (by norm_num), hk]
        have : k - (k - 52) = ((52 : ℕ) : ℤ) := by push_cast; ring
        rw [this, zpow_natCast]; push_cast; ring
      have hle : roundEven ((2:ℚ) ^ k / (2:ℚ) ^ ulpExp q) ≤ roundEven (q / (2:ℚ) ^ ulpExp q) :=
        roundEven_mono (by positivity) (by gcongr)
      rw [e1, roundEven_nat] at hle
      have hle' : ((2 ^ 52 : ℕ) : ℚ) ≤ (roundEven (q / (2:ℚ) ^ ulpExp q) : ℚ) := by exact_mod_cast hle
      calc (2:ℚ) ^ k = ((2 ^ 52 : ℕ) : ℚ) * (2:ℚ) ^ ulpExp q := by rw [← e1]; field_simp
        _ ≤ _ := by gcongr
    exact hA.trans hB

theorem rnd_not_nan (q : ℚ) : (rnd q).isNaN = false := by
  unfold rnd; split_ifs <;> (try rfl) <;> (dsimp only; split_ifs <;> rfl)

theorem rnd_mono {p q : ℚ} (h : p ≤ q) : (rnd p).le (rnd q) = true := by
  have hmax : (0:ℚ) ≤ maxFinite := by unfold maxFinite; norm_num
  unfold rnd
  rcases lt_trichotomy p 0 with hp | hp | hp <;> rcases lt_trichotomy q 0 with hq | hq | hq
  · -- both negative
    have hm := rndPos_mono (p := -q) (q := -p) (by linarith) (by linarith)
    simp only [hp.ne, hq.ne, hp.not_gt, hq.not_gt, if_false]
    split_ifs <;> simp [Xt.le] <;> linarith
  · subst hq
    have := rndPos_nonneg (-p)
    simp only [hp.ne, hp.not_gt, if_false, if_true]
    split_ifs <;> simp [Xt.le]; linarith
  · have := rndPos_nonneg (-p)
    have := rndPos_nonneg q
    simp only [hp.ne, hp.not_gt, hq.ne', hq, if_false, if_true]
    split_ifs <;> simp [Xt.le]; linarith
  · linarith
  · simp [hp, hq, Xt.le]
  · have := rndPos_nonneg q
    simp only [hp, hq.ne', hq, if_false, if_true]
    split_ifs <;> simp [Xt.le]; linarith
  · linarith
  · linarith
  · have hm := rndPos_mono hp h
    simp only [hp, hp.ne', hq.ne', hq, if_false, if_true]
    split_ifs <;> simp [Xt.le] <;> linarith

theorem isFinite_iff (x : F64) : isFinite x = true ↔ ∃ r : ℚ, x = Xt.fin r := by
  cases x with
  | nan => simp [isFinite, isNaN, Xt.isNaN]
  | ninf => simp [isFinite, isNaN, isInf, Xt.isNaN, Xt.isInf]
  | pinf => simp [isFinite, isNaN, isInf, Xt.isNaN, Xt.isInf]
  | fin r => exact ⟨fun _ => ⟨r, rfl⟩, fun _ => rfl⟩

theorem rnd_million : rnd 1000000 = Xt.fin 1000000 := by decide +kernel
theorem rnd_neg_million : rnd (-1000000) = Xt.fin (-1000000) := by decide +kernel

theorem finite_between' (a x b : F64) (ha : isFinite a = true) (hb : isFinite b = true)
    (h1 : le a x = true) (h2 : le x b = true) : isFinite x = true := by
  rw [isFinite_iff] at *
  obtain ⟨a, rfl⟩ := ha; obtain ⟨b, rfl⟩ := hb
  cases x with
  | nan => simp [le, Xt.le] at h1
  | ninf => simp [le, Xt.le] at h1
  | pinf => simp [le, Xt.le] at h2
  | fin r => exact ⟨r, rfl⟩

instance : LawfulArith F64 where
  lit_mono p q h := rnd_mono h
  lit_zero_lt_one := by decide +kernel
  lit_finite q h := by
    rw [abs_le] at h
    have h1 := rnd_mono h.1
    have h2 := rnd_mono h.2
    rw [rnd_million] at h2
    rw [rnd_neg_million] at h1
    exact finite_between' (Xt.fin (-1000000)) (rnd q) (Xt.fin 1000000) rfl rfl h1 h2
  finite_between := finite_between'
  add_not_nan a b ha hb := by
    rw [isFinite_iff] at ha
    obtain ⟨a, rfl⟩ := ha
    cases b with
    | nan => simp [isNaN, Xt.isNaN] at hb
    | ninf => rfl
    | pinf => rfl
    | fin r => exact rnd_not_nan _
  mul_not_nan a b ha hb := by
    rw [isFinite_iff] at ha hb
    obtain ⟨a, rfl⟩ := ha; obtain ⟨b, rfl⟩ := hb
    exact rnd_not_nan _
  mul_mono a a' b b' h0 h1 h2 h3 ha hb := by
    rw [isFinite_iff] at ha hb
    obtain ⟨x', rfl⟩ := ha; obtain ⟨y', rfl⟩ := hb
    have hz : (lit 0 : F64) = (Xt.fin 0 : Xt ℚ) := by show rnd 0 = Xt.fin 0; decide +kernel
    rw [hz] at h0 h2
    cases a with
    | nan => simp [le, Xt.le] at h0
    | ninf => simp [le, Xt.le] at h0
    | pinf => simp [le, Xt.le] at h1
    | fin x =>
      cases b with
      | nan => simp [le, Xt.le] at h2
      | ninf => simp [le, Xt.le] at h2
      | pinf => simp [le, Xt.le] at h3
      | fin y =>
        simp only [le, Xt.le, decide_eq_true_eq] at h0 h1 h2 h3
        exact rnd_mono (mul_le_mul h1 h3 h2 (h0.trans h1))
  half_fifty := by decide +kernel
  grow_min := by decide +kernel

end Limbo.F64

namespace Limbo.F64

/-- The quotient of two `int`s `0 ≤ a ≤ b`, `0 < b < 2^31`, is in `[0,1]`. -/
theorem div_nat_unit (a b : Nat) (hb : 0 < b) (hbi : b < 2 ^ 31) (hab : a ≤ b) :
    le (lit 0) (lit a / lit b : F64) = true ∧ le (lit a / lit b : F64) (lit 1) = true := by
  have hbig : rnd (2 ^ 31) = Xt.fin (2 ^ 31) := by decide +kernel
  have hone : rnd 1 = Xt.fin 1 := by decide +kernel
  have hzero : rnd 0 = Xt.fin 0 := by decide +kernel
  have hfin : ∀ n : Nat, n < 2 ^ 31 → ∃ q : ℚ, rnd (n : ℚ) = Xt.fin q ∧ 0 ≤ q ∧ (0 < n → 1 ≤ q) := by
    intro n hn
    have h1 : (rnd 0).le (rnd (n : ℚ)) = true := rnd_mono (by positivity)
    have h2 : (rnd (n : ℚ)).le (rnd (2 ^ 31)) = true := rnd_mono (by exact_mod_cast hn.le)
    rw [hzero] at h1
    rw [hbig] at h2
    cases h : rnd (n : ℚ) with
    | nan => rw [h] at h1; simp [Xt.le] at h1
    | ninf => rw [h] at h1; simp [Xt.le] at h1
    | pinf => rw [h] at h2; simp [Xt.le] at h2
    | fin q =>
      refine ⟨q, rfl, ?_, ?_⟩
      · rw [h] at h1; simpa [Xt.le] using h1
      · intro hpos
        have h3 : (rnd 1).le (rnd (n : ℚ)) = true := rnd_mono (by exact_mod_cast hpos)
        rw [hone, h] at h3; simpa [Xt.le] using h3
  obtain ⟨qa, ea, ha, -⟩ := hfin a (by omega)
  obtain ⟨qb, eb, hqb, hb1⟩ := hfin b hbi
  have hb1 := hb1 hb
  have hle : qa ≤ qb := by
    have : (rnd (a : ℚ)).le (rnd (b : ℚ)) = true := rnd_mono (by exact_mod_cast hab)
    rw [ea, eb] at this; simpa [Xt.le] using this
  have hpos : 0 < qb := by linarith
  have hd : (lit a / lit b : F64) = rnd (qa / qb) := by
    show Xt.div rnd (rnd a) (rnd b) = rnd (qa / qb)
    rw [ea, eb]; simp [Xt.div, hpos.ne']
  rw [hd]
  refine ⟨?_, ?_⟩
  · show (rnd 0).le (rnd (qa / qb)) = true
    exact rnd_mono (by positivity)
  · show (rnd (qa / qb)).le (rnd 1) = true
    exact rnd_mono ((div_le_one hpos).2 hle)

end Limbo.F64
