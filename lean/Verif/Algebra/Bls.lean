import Mathlib.NumberTheory.LucasPrimality
import Mathlib.FieldTheory.Finite.Basic
import Mathlib.Tactic.NormNum.Prime
import Mathlib.Tactic.ReduceModChar
import Mathlib.Tactic.NormNum.PowMod

/-!
The scalar field of BLS12-381 (`BLSScalar`, algebra/src/bls12_381.rs:22): its order is prime, checked by a
Lucas certificate.
-/

namespace Verif.Bls

/-- the order of the scalar field of BLS12-381; algebra/src/bls12_381.rs:270-286 (`get_field_size_biguint`) -/
abbrev r : Nat := 52435875175126190479447740508185965837690552500527637822603658699938581184513

theorem cast_ne (a b : Nat) (h : a % r ≠ b % r) : (a : ZMod r) ≠ (b : ZMod r) := by
  intro e
  rw [ZMod.natCast_eq_natCast_iff'] at e
  exact h e

theorem factor_cases (q : Nat) (hq : q.Prime) (h : q ∣ r - 1) :
    q ∈ [2, 3, 11, 19, 10177, 125527, 859267, 906349, 2508409, 2529403, 52437899, 254760293] := by
  have hf : r - 1 = 2 ^ 32 * 3 * 11 * 19 * 10177 * 125527 * 859267 * 906349 ^ 2 * 2508409 * 2529403 * 52437899 *
      254760293 ^ 2 := by norm_num
  rw [hf] at h
  have key : ∀ p, p.Prime → q ∣ p → q = p := fun p hp hd => (Nat.prime_dvd_prime_iff_eq hq hp).mp hd
  simp only [hq.dvd_mul] at h
  simp only [List.mem_cons, List.not_mem_nil, or_false]
  rcases h with ((((((((((( h | h) | h) | h) | h) | h) | h) | h) | h) | h) | h) | h)
  · have := key 2 (by norm_num) (hq.dvd_of_dvd_pow h); omega
  · have := key 3 (by norm_num) h; omega
  · have := key 11 (by norm_num) h; omega
  · have := key 19 (by norm_num) h; omega
  · have := key 10177 (by norm_num) h; omega
  · have := key 125527 (by norm_num) h; omega
  · have := key 859267 (by norm_num) h; omega
  · have := key 906349 (by norm_num) (hq.dvd_of_dvd_pow h); omega
  · have := key 2508409 (by norm_num) h; omega
  · have := key 2529403 (by norm_num) h; omega
  · have := key 52437899 (by norm_num) h; omega
  · have := key 254760293 (by norm_num) (hq.dvd_of_dvd_pow h); omega

theorem pow_full : (7 : ZMod r) ^ (r - 1) = 1 := by
  have e : r - 1 = 52435875175126190479447740508185965837690552500527637822603658699938581184512 := by norm_num
  rw [e]
  reduce_mod_char

theorem pow_2 : (7 : ZMod r) ^ ((r - 1) / 2) ≠ 1 := by
  have e : (r - 1) / 2 = 26217937587563095239723870254092982918845276250263818911301829349969290592256 := by norm_num
  have h : (7 : ZMod r) ^ 26217937587563095239723870254092982918845276250263818911301829349969290592256 = ((52435875175126190479447740508185965837690552500527637822603658699938581184512 : Nat) : ZMod r) := by
    push_cast
    reduce_mod_char
  rw [e, h]
  have := cast_ne 52435875175126190479447740508185965837690552500527637822603658699938581184512 1 (by norm_num)
  simpa using this

theorem pow_3 : (7 : ZMod r) ^ ((r - 1) / 3) ≠ 1 := by
  have e : (r - 1) / 3 = 17478625058375396826482580169395321945896850833509212607534552899979527061504 := by norm_num
  have h : (7 : ZMod r) ^ 17478625058375396826482580169395321945896850833509212607534552899979527061504 = ((228988810152649578064853576960394133503 : Nat) : ZMod r) := by
    push_cast
    reduce_mod_char
  rw [e, h]
  have := cast_ne 228988810152649578064853576960394133503 1 (by norm_num)
  simpa using this

theorem pow_11 : (7 : ZMod r) ^ ((r - 1) / 11) ≠ 1 := by
  have e : (r - 1) / 11 = 4766897743193290043586158228016905985244595681866148892963968972721689198592 := by norm_num
  have h : (7 : ZMod r) ^ 4766897743193290043586158228016905985244595681866148892963968972721689198592 = ((23018359928796249160281600265894119056554178830089746663447279710197994863834 : Nat) : ZMod r) := by
    push_cast
    reduce_mod_char
  rw [e, h]
  have := cast_ne 23018359928796249160281600265894119056554178830089746663447279710197994863834 1 (by norm_num)
  simpa using this

theorem pow_19 : (7 : ZMod r) ^ ((r - 1) / 19) ≠ 1 := by
  have e : (r - 1) / 19 = 2759782903954010025234091605693998201983713289501454622242297826312556904448 := by norm_num
  have h : (7 : ZMod r) ^ 2759782903954010025234091605693998201983713289501454622242297826312556904448 = ((33954097614611596975476204725091907054106918505758578373023360834096706151438 : Nat) : ZMod r) := by
    push_cast
    reduce_mod_char
  rw [e, h]
  have := cast_ne 33954097614611596975476204725091907054106918505758578373023360834096706151438 1 (by norm_num)
  simpa using this

theorem pow_10177 : (7 : ZMod r) ^ ((r - 1) / 10177) ≠ 1 := by
  have e : (r - 1) / 10177 = 5152390210781781515127025695999407078479959958782316775336902692339449856 := by norm_num
  have h : (7 : ZMod r) ^ 5152390210781781515127025695999407078479959958782316775336902692339449856 = ((12994404728900834985293533771030346015740262791642084609331205164292017613753 : Nat) : ZMod r) := by
    push_cast
    reduce_mod_char
  rw [e, h]
  have := cast_ne 12994404728900834985293533771030346015740262791642084609331205164292017613753 1 (by norm_num)
  simpa using this

theorem pow_125527 : (7 : ZMod r) ^ ((r - 1) / 125527) ≠ 1 := by
  have e : (r - 1) / 125527 = 417725869136729074059347714102830194601086240414633009811464136798765056 := by norm_num
  have h : (7 : ZMod r) ^ 417725869136729074059347714102830194601086240414633009811464136798765056 = ((27966497065103907670110754930460859429183346056121669143369624627650089262159 : Nat) : ZMod r) := by
    push_cast
    reduce_mod_char
  rw [e, h]
  have := cast_ne 27966497065103907670110754930460859429183346056121669143369624627650089262159 1 (by norm_num)
  simpa using this

theorem pow_859267 : (7 : ZMod r) ^ ((r - 1) / 859267) ≠ 1 := by
  have e : (r - 1) / 859267 = 61023960160376449321861238134579782346686830170980193377150127608692736 := by norm_num
  have h : (7 : ZMod r) ^ 61023960160376449321861238134579782346686830170980193377150127608692736 = ((46650213108022170713266871296380854050719049849705294301174774712973279642509 : Nat) : ZMod r) := by
    push_cast
    reduce_mod_char
  rw [e, h]
  have := cast_ne 46650213108022170713266871296380854050719049849705294301174774712973279642509 1 (by norm_num)
  simpa using this

theorem pow_906349 : (7 : ZMod r) ^ ((r - 1) / 906349) ≠ 1 := by
  have e : (r - 1) / 906349 = 57853956009358636109763171259841369977448590444219211167666824479244288 := by norm_num
  have h : (7 : ZMod r) ^ 57853956009358636109763171259841369977448590444219211167666824479244288 = ((47009375709878424687795209168006564057444627941356163587161684439552631655798 : Nat) : ZMod r) := by
    push_cast
    reduce_mod_char
  rw [e, h]
  have := cast_ne 47009375709878424687795209168006564057444627941356163587161684439552631655798 1 (by norm_num)
  simpa using this

theorem pow_2508409 : (7 : ZMod r) ^ ((r - 1) / 2508409) ≠ 1 := by
  have e : (r - 1) / 2508409 = 20904037250355181503274681484632675866531555460264908084209416686010368 := by norm_num
  have h : (7 : ZMod r) ^ 20904037250355181503274681484632675866531555460264908084209416686010368 = ((3815854618502706066781575637619522226469869671769340391720987388396519592594 : Nat) : ZMod r) := by
    push_cast
    reduce_mod_char
  rw [e, h]
  have := cast_ne 3815854618502706066781575637619522226469869671769340391720987388396519592594 1 (by norm_num)
  simpa using this

theorem pow_2529403 : (7 : ZMod r) ^ ((r - 1) / 2529403) ≠ 1 := by
  have e : (r - 1) / 2529403 = 20730534112249487519168649878325425342537568153642435714120548880482304 := by norm_num
  have h : (7 : ZMod r) ^ 20730534112249487519168649878325425342537568153642435714120548880482304 = ((49551106890066900544454285625746392760007334600837347914792012465621494065871 : Nat) : ZMod r) := by
    push_cast
    reduce_mod_char
  rw [e, h]
  have := cast_ne 49551106890066900544454285625746392760007334600837347914792012465621494065871 1 (by norm_num)
  simpa using this

theorem pow_52437899 : (7 : ZMod r) ^ ((r - 1) / 52437899) ≠ 1 := by
  have e : (r - 1) / 52437899 = 999961405302035279473110478895921551656570994587857873989262207090688 := by norm_num
  have h : (7 : ZMod r) ^ 999961405302035279473110478895921551656570994587857873989262207090688 = ((28145752697189822412174329949576985284591506457805936680525074633201440824164 : Nat) : ZMod r) := by
    push_cast
    reduce_mod_char
  rw [e, h]
  have := cast_ne 28145752697189822412174329949576985284591506457805936680525074633201440824164 1 (by norm_num)
  simpa using this

theorem pow_254760293 : (7 : ZMod r) ^ ((r - 1) / 254760293) ≠ 1 := by
  have e : (r - 1) / 254760293 = 205824363591567193241718168805002771125288949563767528806397073424384 := by norm_num
  have h : (7 : ZMod r) ^ 205824363591567193241718168805002771125288949563767528806397073424384 = ((33687332884818246042130531625579405929702965388080887080561063062884226819407 : Nat) : ZMod r) := by
    push_cast
    reduce_mod_char
  rw [e, h]
  have := cast_ne 33687332884818246042130531625579405929702965388080887080561063062884226819407 1 (by norm_num)
  simpa using this

/-- 7 has full order -/
theorem pow_factor (q : Nat) (hq : q.Prime) (hd : q ∣ r - 1) : (7 : ZMod r) ^ ((r - 1) / q) ≠ 1 := by
  have := factor_cases q hq hd
  simp only [List.mem_cons, List.not_mem_nil, or_false] at this
  rcases this with rfl | rfl | rfl | rfl | rfl | rfl | rfl | rfl | rfl | rfl | rfl | rfl
  · exact pow_2
  · exact pow_3
  · exact pow_11
  · exact pow_19
  · exact pow_10177
  · exact pow_125527
  · exact pow_859267
  · exact pow_906349
  · exact pow_2508409
  · exact pow_2529403
  · exact pow_52437899
  · exact pow_254760293

/-- The order of the scalar field is prime. -/
theorem prime_r : Nat.Prime r := lucas_primality r 7 pow_full pow_factor

instance : Fact (Nat.Prime r) := ⟨prime_r⟩

end Verif.Bls
