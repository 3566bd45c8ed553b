import Mathlib.Data.Nat.Bitwise
import Mathlib.Data.List.ProdSigma
import Mathlib.Tactic.Linarith
import Mathlib.Tactic.Ring
import Mathlib.Tactic.NormNum
import Mathlib.Tactic.FieldSimp
import Mathlib.Algebra.Order.Field.Basic
import Verif.Spec.Stack
import Verif.Proof.Calendar
import Verif.Proof.ChangeMap
import Verif.Props.C34_C36
/-!
# Proofs for `Stack`
-/
namespace Pycold.Stack
open Spec

/-! ## Quality band -/

theorem bit_eq (p k : Nat) : bit p k = p.testBit k := by
  rw [bit, Nat.one_shiftLeft, Nat.and_two_pow]
  have : 0 < 2 ^ k := Nat.two_pow_pos k
  cases p.testBit k <;> simp

/-! ## Names -/

theorem digitVal_digit (n : Nat) : digitVal (Char.ofNat (48 + n % 10)) = some (n % 10) := by
  have h : n % 10 < 10 := Nat.mod_lt _ (by decide)
  generalize n % 10 = d at h
  have : d = 0 ∨ d = 1 ∨ d = 2 ∨ d = 3 ∨ d = 4 ∨ d = 5 ∨ d = 6 ∨ d = 7 ∨ d = 8 ∨ d = 9 := by omega
  rcases this with h | h | h | h | h | h | h | h | h | h <;> subst h <;> decide

theorem parseDigits_append : ∀ (a b : Name) (acc : Nat),
    parseDigits acc (a ++ b) = (parseDigits acc a).bind fun n => parseDigits n b
  | [], b, acc => by simp [parseDigits]
  | c :: a, b, acc => by
    rw [List.cons_append, parseDigits, parseDigits]
    cases digitVal c with
    | none => rfl
    | some d => exact parseDigits_append a b _

theorem parseDigits_dec : ∀ (w n acc : Nat), n < 10 ^ w → parseDigits acc (dec w n) = some (acc * 10 ^ w + n)
  | 0, n, acc, h => by
    have : n = 0 := by simpa using h
    simp [dec, parseDigits, this]
  | w + 1, n, acc, h => by
    rw [dec, parseDigits_append, parseDigits_dec w (n / 10) acc (by rw [Nat.pow_succ] at h; omega)]
    simp only [Option.bind_some, parseDigits, digitVal_digit]
    congr 1
    rw [Nat.pow_succ, ← Nat.mul_assoc, Nat.add_mul]
    omega

theorem dec_length : ∀ w n : Nat, (dec w n).length = w
  | 0, n => rfl
  | w + 1, n => by simp [dec, dec_length w]

theorem parseNat_dec {w n : Nat} (hw : 0 < w) (h : n < 10 ^ w) : parseNat (dec w n) = some n := by
  rw [parseNat, if_neg (by intro e; have := congrArg List.length e; simp [dec_length] at this; omega),
    parseDigits_dec w n 0 h]
  simp

theorem pad3_eq (n : Nat) : pad3 n = dec 3 n := by
  simp only [pad3, dec, digit, List.nil_append, List.cons_append, Nat.div_div_eq_div_mul]

theorem leap_iff (y : Nat) : leap y = true ↔ Pycold.Spec.Leap y := by
  simp only [leap, decide_eq_true_eq, Pycold.Spec.Leap]; omega

theorem monthDays_eq (y m : Nat) : (monthDays y m : Int) = Pycold.Spec.monthLength y m := by
  simp only [monthDays, Pycold.Spec.monthLength, ← leap_iff]
  split_ifs <;> simp

theorem beforeMonth_eq (y m : Nat) (h1 : 1 ≤ m) (h2 : m ≤ 12) :
    (beforeMonth y m : Int) = Pycold.Spec.daysBeforeMonth y m := by
  have : m = 1 ∨ m = 2 ∨ m = 3 ∨ m = 4 ∨ m = 5 ∨ m = 6 ∨ m = 7 ∨ m = 8 ∨ m = 9 ∨ m = 10 ∨ m = 11 ∨ m = 12 := by omega
  rcases this with h | h | h | h | h | h | h | h | h | h | h | h <;> subst h <;>
    simp [beforeMonth, Pycold.Spec.daysBeforeMonth, Pycold.Spec.monthLength, ← leap_iff] <;>
    (cases leap y <;> simp)

theorem slice_mid {pre mid post : Name} {a b : Nat} (ha : pre.length = a) (hb : mid.length = b - a) (hab : a ≤ b) :
    slice (pre ++ mid ++ post) a b = mid := by
  subst ha
  rw [slice, List.take_append_of_le_length (by simp; omega), List.take_of_length_le (by simp; omega), List.drop_left]

theorem daysBeforeMonth_le (y m : Nat) (h1 : 1 ≤ m) (h2 : m ≤ 12) : Pycold.Spec.daysBeforeMonth y m ≤ 335 := by
  rw [← beforeMonth_eq y m h1 h2]
  have : m = 1 ∨ m = 2 ∨ m = 3 ∨ m = 4 ∨ m = 5 ∨ m = 6 ∨ m = 7 ∨ m = 8 ∨ m = 9 ∨ m = 10 ∨ m = 11 ∨ m = 12 := by omega
  rcases this with h | h | h | h | h | h | h | h | h | h | h | h <;> subst h <;>
    simp only [beforeMonth] <;> split_ifs <;> decide

theorem monthLength_le (y : Int) (m : Nat) : Pycold.Spec.monthLength y m ≤ 31 := by
  simp only [Pycold.Spec.monthLength]; split_ifs <;> decide

theorem dayOfYear_eq {y m d : Nat} {o : Int} (h : IsDate y m d o) :
    ∃ n, dayOfYear y m d = some n ∧ 1 ≤ n ∧ n < 1000 ∧ o = ChangeMap.jan1 y + (n - 1) := by
  obtain ⟨a, b, c, e, f, g, i⟩ := h
  refine ⟨beforeMonth y m + d, ?_, by omega, ?_, ?_⟩
  · rw [dayOfYear, if_pos]
    refine ⟨a, b, c, e, f, ?_⟩
    have := monthDays_eq y m
    omega
  · have h1 := daysBeforeMonth_le y m c e
    have h2 := monthLength_le y m
    have h3 := beforeMonth_eq y m c e
    omega
  · rw [i, ChangeMap.jan1_eq, Pycold.Spec.ordinal, Pycold.Spec.ordinal, ← beforeMonth_eq y m c e]
    push_cast
    ring

theorem dateOf_dec {y n : Nat} (h1 : 1 ≤ y) (h2 : y ≤ 9999) (h3 : n < 1000) :
    dateOf (dec 4 y) (dec 3 n) = some (ChangeMap.jan1 y + (n - 1)) := by
  simp only [dateOf, parseNat_dec (w := 4) (n := y) (by decide) (by omega),
    parseNat_dec (w := 3) (n := n) (by decide) (by omega)]
  simp [h1, h2]

/-- What is known of a scene with a regular name. -/
structure Known (k : Kind) (f : Name) (o : Int) (p : Parsed) : Prop where
  parsed : parse k f = some p
  date : dateOf p.year p.doy = some o
  file : dateOfFile p.name = some o
  bands : bandsKnown k p = true
  first : (p.name.head? = some 'L' || p.name.head? = some 'S') = true
  folder : folderDate k f = some o

theorem sensorOf_known {c : Char} (h : c ∈ ['4', '5', '7', '8', '9']) :
    ∃ s, sensorOf c = some ('L' :: s) ∧ s.length = 2 := by
  simp only [List.mem_cons, List.not_mem_nil, or_false] at h
  rcases h with h | h | h | h | h <;> subst h <;> exact ⟨_, rfl, rfl⟩

theorem file_date {pre y d post : Name} {o : Int} (hp : pre.length = 9) (hy : y.length = 4) (hd : d.length = 3)
    (h : dateOf y d = some o) : dateOfFile (pre ++ y ++ d ++ post) = some o := by
  rw [dateOfFile, show pre ++ y ++ d ++ post = pre ++ y ++ (d ++ post) by simp, slice_mid hp (by omega) (by decide),
    show pre ++ y ++ (d ++ post) = (pre ++ y) ++ d ++ post by simp, slice_mid (by simp; omega) (by omega) (by decide), h]

theorem dateOfFile_assoc (a b c d e : Name) : dateOfFile (a ++ b ++ c ++ d ++ e) = dateOfFile (a ++ b ++ c ++ (d ++ e)) := by
  simp

theorem slice_length {f : Name} {a b : Nat} (h : b ≤ f.length) : (slice f a b).length = b - a := by
  simp only [slice, List.length_drop, List.length_take]; omega

theorem landsat_fields {at_ : Nat} {f : Name} {o : Int} (h : Landsat at_ f o) :
    ∃ (s : Name) (y n m d : Nat), f[3]?.bind sensorOf = some ('L' :: s) ∧ s.length = 2 ∧ 1 ≤ y ∧ y ≤ 9999 ∧ n < 1000 ∧ 1 ≤ n ∧
      slice f at_ (at_ + 4) = dec 4 y ∧ slice f (at_ + 4) (at_ + 6) = dec 2 m ∧ slice f (at_ + 6) (at_ + 8) = dec 2 d ∧
      dayOfYear y m d = some n ∧ at_ + 8 ≤ f.length ∧ o = ChangeMap.jan1 y + (n - 1) ∧
      parseNat (dec 4 y) = some y ∧ parseNat (dec 2 m) = some m ∧ parseNat (dec 2 d) = some d := by
  obtain ⟨⟨c, hc, e⟩, pre, post, y, m, d, hf, hl, hd⟩ := h
  obtain ⟨s, hs, hsl⟩ := sensorOf_known hc
  obtain ⟨n, h1, h2, h3, h4⟩ := dayOfYear_eq hd
  obtain ⟨a, b, c1, c2, c3, c4, -⟩ := hd
  have h31 := monthLength_le y m
  refine ⟨s, y, n, m, d, by rw [e]; exact hs, hsl, a, b, h3, h2, ?_, ?_, ?_, h1, ?_, h4,
    parseNat_dec (by decide) (by omega), parseNat_dec (by decide) (by omega), parseNat_dec (by decide) (by omega)⟩
  · rw [hf, show pre ++ dec 4 y ++ dec 2 m ++ dec 2 d ++ post = pre ++ dec 4 y ++ (dec 2 m ++ dec 2 d ++ post) by simp]
    exact slice_mid hl (by rw [dec_length]; omega) (by omega)
  · rw [hf, show pre ++ dec 4 y ++ dec 2 m ++ dec 2 d ++ post = (pre ++ dec 4 y) ++ dec 2 m ++ (dec 2 d ++ post) by simp]
    exact slice_mid (by simp [dec_length, hl]) (by rw [dec_length]; omega) (by omega)
  · rw [hf, show pre ++ dec 4 y ++ dec 2 m ++ dec 2 d ++ post = (pre ++ dec 4 y ++ dec 2 m) ++ dec 2 d ++ post by simp]
    exact slice_mid (by simp [dec_length, hl]) (by rw [dec_length]; omega) (by omega)
  · rw [hf]; simp [dec_length, hl]; omega

theorem known_landsat {k : Kind} {at_ : Nat} {f : Name} {o : Int} (h : Landsat at_ f o)
    (hk : (k = .ard ∧ at_ = 15) ∨ (k = .ardC2 ∧ at_ = 15) ∨ (k = .c2 ∧ at_ = 17)) : ∃ p, Known k f o p := by
  obtain ⟨s, y, n, m, d, hs, hsl, y1, y2, n1, n2, e1, e2, e3, hn, hl, ho, q1, q2, q3⟩ := landsat_fields h
  have hdoy : doyOf (dec 4 y) (dec 2 m) (dec 2 d) = some (dec 3 n) := by
    simp only [doyOf, q1, q2, q3, hn, Option.bind_eq_bind, Option.bind_some, pad3_eq]
  have hdate := dateOf_dec y1 y2 n1
  have hfold : folderDate.ofDate (dec 4 y) (dec 2 m) (dec 2 d) = some o := by
    simp only [folderDate.ofDate, q1, q2, q3, hn, Option.bind_eq_bind, Option.bind_some, ho]
  rcases hk with ⟨hk, ha⟩ | ⟨hk, ha⟩ | ⟨hk, ha⟩ <;> subst hk <;> subst ha <;> simp only [Nat.reduceAdd] at e1 e2 e3 hl
  · refine ⟨⟨'L' :: s, 'L' :: s ++ slice f 8 11 ++ slice f 11 14 ++ dec 4 y ++ dec 3 n ++ 'C' :: slice f 35 36 ++ slice f 37 40, dec 4 y, dec 3 n⟩,
      ?_, ?_, ?_, rfl, ?_, ?_⟩
    · simp only [parse, hs, e1, e2, e3, hdoy, Option.bind_eq_bind, Option.bind_some]
    · rw [hdate, ho]
    · rw [dateOfFile_assoc]
      exact file_date (by simp [slice_length (show 11 ≤ f.length by omega), slice_length (show 14 ≤ f.length by omega), hsl])
        (dec_length _ _) (dec_length _ _) (by rw [hdate, ho])
    · simp
    · simp only [folderDate, e1, e2, e3, hfold]
  · refine ⟨⟨'L' :: s, 'L' :: s ++ slice f 8 11 ++ slice f 11 14 ++ dec 4 y ++ dec 3 n ++ 'C' :: slice f 35 36 ++ slice f 34 35, dec 4 y, dec 3 n⟩,
      ?_, ?_, ?_, rfl, ?_, ?_⟩
    · simp only [parse, hs, e1, e2, e3, hdoy, Option.bind_eq_bind, Option.bind_some]
    · rw [hdate, ho]
    · rw [dateOfFile_assoc]
      exact file_date (by simp [slice_length (show 11 ≤ f.length by omega), slice_length (show 14 ≤ f.length by omega), hsl])
        (dec_length _ _) (dec_length _ _) (by rw [hdate, ho])
    · simp
    · simp only [folderDate, e1, e2, e3, hfold]
  · refine ⟨⟨'L' :: s, 'L' :: s ++ slice f 10 13 ++ slice f 13 16 ++ dec 4 y ++ dec 3 n ++ ['C', '2'] ++ f.drop (f.length - 2), dec 4 y, dec 3 n⟩,
      ?_, ?_, ?_, rfl, ?_, ?_⟩
    · simp only [parse, hs, e1, e2, e3, hdoy, Option.bind_eq_bind, Option.bind_some]
    · rw [hdate, ho]
    · rw [dateOfFile_assoc]
      exact file_date (by simp [slice_length (show 13 ≤ f.length by omega), slice_length (show 16 ≤ f.length by omega), hsl])
        (dec_length _ _) (dec_length _ _) (by rw [hdate, ho])
    · simp
    · simp only [folderDate, e1, e2, e3, hfold]

theorem split_none {sep : Char} : ∀ {w : Name}, sep ∉ w → split sep w = [w]
  | [], _ => rfl
  | c :: cs, h => by
    simp only [List.mem_cons, not_or] at h
    rw [split, if_neg (fun e => h.1 e.symm), split_none h.2]

theorem split_cons {sep : Char} : ∀ {w : Name} (rest : Name), sep ∉ w → split sep (w ++ sep :: rest) = w :: split sep rest
  | [], rest, _ => by simp [split]
  | c :: cs, rest, h => by
    simp only [List.mem_cons, not_or] at h
    rw [List.cons_append, split, if_neg (fun e => h.1 e.symm), split_cons rest h.2]

theorem split_ne_nil {sep : Char} : ∀ w : Name, split sep w ≠ []
  | [] => by simp [split]
  | c :: cs => by
    rw [split]
    split_ifs
    · simp
    · cases split sep cs <;> simp

theorem split_last {sep : Char} {base : Name} (hb : sep ∉ base) : ∀ dir : Name,
    (split sep (dir ++ sep :: base)).getLastD [] = base
  | [] => by simp [split, split_none hb]
  | c :: cs => by
    have ih := split_last hb cs
    rw [List.cons_append, split]
    have hn := split_ne_nil (sep := sep) (cs ++ sep :: base)
    have h2 : 2 ≤ (split sep (cs ++ sep :: base)).length := by
      clear ih hn
      induction cs with
      | nil => simp [split, split_none hb]
      | cons a l ih =>
        rw [List.cons_append, split]
        split_ifs
        · simp; omega
        · generalize split sep (l ++ sep :: base) = x at ih
          match x, ih with
          | a :: b :: t, _ => simp
    split_ifs
    · generalize split sep (cs ++ sep :: base) = x at ih h2
      match x, h2 with
      | a :: b :: t, _ => simpa using ih
    · generalize split sep (cs ++ sep :: base) = x at ih h2
      match x, h2 with
      | a :: b :: t, _ => simpa using ih

theorem dots_cons (w : Name) (v : Name) (ws : List Name) : dots (w :: v :: ws) = w ++ '.' :: dots (v :: ws) := by
  simp [dots, List.intercalate]

theorem dots_one (w : Name) : dots [w] = w := by simp [dots, List.intercalate]

theorem split_dots : ∀ {ws : List Name}, ws ≠ [] → (∀ w ∈ ws, '.' ∉ w) → split '.' (dots ws) = ws
  | [w], _, h => by rw [dots_one, split_none (h w (by simp))]
  | w :: v :: ws, _, h => by
    rw [dots_cons, split_cons _ (h w (by simp)), split_dots (by simp) (fun u hu => h u (by simp [hu]))]

theorem slash_dots : ∀ {ws : List Name}, (∀ w ∈ ws, '/' ∉ w) → '/' ∉ dots ws
  | [], _ => by simp [dots, List.intercalate]
  | [w], h => by rw [dots_one]; exact h w (by simp)
  | w :: v :: ws, h => by
    rw [dots_cons]
    have := slash_dots (ws := v :: ws) (fun u hu => h u (by simp [hu]))
    simp only [List.mem_append, List.mem_cons, not_or]
    exact ⟨h w (by simp), by decide, this⟩

theorem hls_parsed {product sensor tile time v1 v2 : Name} {o : Int} (h : HlsParts product sensor tile time v1 v2 o) :
    ∃ p, parseHls [product, sensor, tile, time, v1, v2] = some p ∧ dateOf p.year p.doy = some o ∧ dateOfFile p.name = some o ∧
      (p.sensor = ['L', '3', '0'] ∨ p.sensor = ['S', '3', '0']) ∧ (p.name.head? = some 'L' || p.name.head? = some 'S') = true := by
  obtain ⟨hw, hp, hs, ht, y, doy, rest, he, y1, y2, hv, ho⟩ := h
  have hb := (yearLength_bounds y).2
  have hv1 := hv.1
  have hv2 := hv.2
  have s1 : slice time 0 4 = dec 4 y := by
    rw [he, show dec 4 y ++ dec 3 doy ++ rest = [] ++ dec 4 y ++ (dec 3 doy ++ rest) by simp]
    exact slice_mid rfl (dec_length _ _) (by decide)
  have s2 : slice time 4 7 = dec 3 doy := by
    rw [he]; exact slice_mid (dec_length _ _) (dec_length _ _) (by decide)
  have hd : dateOf (dec 4 y) (dec 3 doy) = some o := by
    rw [dateOf_dec y1 y2 (by omega), ho, ChangeMap.jan1_eq, Pycold.Spec.ordinal, Pycold.Spec.ordinal]
    congr 1; ring
  refine ⟨_, rfl, ?_, ?_, hs, ?_⟩
  · simp only [s1, s2, hd]
  · simp only [s1, s2]
    rw [List.append_assoc]
    exact file_date (by rcases hs with e | e <;> simp [e, ht]) (dec_length _ _) (dec_length _ _) hd
  · rcases hs with e | e <;> simp [e]

theorem hls_folder {product sensor tile time v1 v2 : Name} {o : Int} {tail : List Name} (h : HlsParts product sensor tile time v1 v2 o) :
    dateOf (slice (dots (product :: sensor :: tile :: time :: v1 :: v2 :: tail)) 15 19)
      (slice (dots (product :: sensor :: tile :: time :: v1 :: v2 :: tail)) 19 22) = some o := by
  obtain ⟨hw, hp, hs, ht, y, doy, rest, he, y1, y2, hv, ho⟩ := h
  have hb := (yearLength_bounds y).2
  have hv2 := hv.2
  have hsl : sensor.length = 3 := by rcases hs with e | e <;> simp [e]
  rw [dots_cons, dots_cons, dots_cons, dots_cons, he]
  generalize dots (v1 :: v2 :: tail) = t
  have e1 : product ++ '.' :: (sensor ++ '.' :: (tile ++ '.' :: (dec 4 y ++ dec 3 doy ++ rest ++ '.' :: t)))
      = (product ++ '.' :: (sensor ++ '.' :: (tile ++ ['.']))) ++ dec 4 y ++ (dec 3 doy ++ rest ++ '.' :: t) := by simp
  have e2 : product ++ '.' :: (sensor ++ '.' :: (tile ++ '.' :: (dec 4 y ++ dec 3 doy ++ rest ++ '.' :: t)))
      = (product ++ '.' :: (sensor ++ '.' :: (tile ++ ['.'])) ++ dec 4 y) ++ dec 3 doy ++ (rest ++ '.' :: t) := by simp
  rw [show slice (product ++ '.' :: (sensor ++ '.' :: (tile ++ '.' :: (dec 4 y ++ dec 3 doy ++ rest ++ '.' :: t)))) 15 19 = dec 4 y from by
      rw [e1]; exact slice_mid (by simp [hp, hsl, ht]) (dec_length _ _) (by decide),
    show slice (product ++ '.' :: (sensor ++ '.' :: (tile ++ '.' :: (dec 4 y ++ dec 3 doy ++ rest ++ '.' :: t)))) 19 22 = dec 3 doy from by
      rw [e2]; exact slice_mid (by simp [hp, hsl, ht, dec_length]) (dec_length _ _) (by decide),
    dateOf_dec y1 y2 (by omega), ho, ChangeMap.jan1_eq, Pycold.Spec.ordinal, Pycold.Spec.ordinal]
  congr 1; ring

theorem known {k : Kind} {f : Name} {o : Int} (h : Acquired k f o) : ∃ p, Known k f o p := by
  cases k with
  | ard => exact known_landsat (k := .ard) (at_ := 15) h (by simp)
  | ardC2 => exact known_landsat (k := .ardC2) (at_ := 15) h (by simp)
  | c2 => exact known_landsat (k := .c2) (at_ := 17) h (by simp)
  | hls =>
    obtain ⟨product, sensor, tile, time, v1, v2, hf, hp⟩ := h
    obtain ⟨p, a, b, c, d, e⟩ := hls_parsed hp
    refine ⟨p, ?_, b, c, ?_, e, ?_⟩
    · rw [parse, hf, split_dots (by simp) (fun w hw => (hp.1 w hw).1)]; exact a
    · rcases d with d | d <;> simp [bandsKnown, d]
    · rw [folderDate, hf]; exact hls_folder hp
  | hls14 =>
    obtain ⟨dir, product, sensor, tile, time, v1, v2, ext, hf, x1, x2, hp⟩ := h
    obtain ⟨p, a, b, c, d, e⟩ := hls_parsed hp
    have hnodot : ∀ w ∈ [product, sensor, tile, time, v1, v2, ext], '.' ∉ w ∧ '/' ∉ w := by
      intro w hw
      have hh := hp.1
      simp only [List.mem_cons, List.not_mem_nil, or_false] at hw
      rcases hw with e | e | e | e | e | e | e
      · exact hh w (by simp [e])
      · exact hh w (by simp [e])
      · exact hh w (by simp [e])
      · exact hh w (by simp [e])
      · exact hh w (by simp [e])
      · exact hh w (by simp [e])
      · rw [e]; exact ⟨x1, x2⟩
    have hl := split_last (sep := '/') (slash_dots fun w hw => (hnodot w hw).2) dir
    refine ⟨p, ?_, b, c, ?_, e, ?_⟩
    · rw [parse, hf, hl, split_dots (by simp) (fun w hw => (hnodot w hw).1)]; exact a
    · rcases d with d | d <;> simp [bandsKnown, d]
    · simp only [folderDate]; rw [hf, hl]; exact hls_folder hp

/-! ## Blocks -/

theorem offset_eq (c : Config) (i j pos : Nat) :
    Tile.strideOffset c.nCols c.bh c.bw i j (pos / c.bw) (pos % c.bw) = pixel c i j pos := by
  simp only [Tile.strideOffset, pixel, place]; ring

theorem pixel_lt {c : Config} (ht : Tiled c) {i j pos : Nat} (hi : i < c.nby) (hj : j < c.nbx) (hp : pos < c.bh * c.bw) :
    pixel c i j pos < c.nRows * c.nCols := by
  obtain ⟨hw, hh, e1, e2⟩ := ht
  have hr : pos / c.bw < c.bh := (Nat.div_lt_iff_lt_mul hw).2 hp
  have hc : pos % c.bw < c.bw := Nat.mod_lt _ hw
  have := (Pycold.C49_split c.nbx c.nby c.bw c.bh i j (pos / c.bw) (pos % c.bw) hi hj hr hc).1
  rw [← e1, ← e2, offset_eq] at this
  exact this

theorem blockOf_eq {α : Type} {c : Config} (ht : Tiled c) {i j : Nat} (hi : i < c.nby) (hj : j < c.nbx) {img : List α}
    (hl : img.length = c.nRows * c.nCols) (d : α) :
    blockOf c i j img = some ((List.range (c.bh * c.bw)).map fun pos => img.getD (pixel c i j pos) d) := by
  refine ChangeMap.mapM_some _ _ _ fun pos hpos => ?_
  have := pixel_lt ht hi hj (List.mem_range.1 hpos)
  rw [offset_eq, List.getD_eq_getElem _ _ (by omega), List.getElem?_eq_getElem (by omega)]

/-- The contents of the file of a block. -/
noncomputable def content (c : Config) (s : Scene) (i j : Nat) : Block :=
  (List.range (c.bh * c.bw)).map fun pos => (List.range 8).map fun b => valueAt c s (pixel c i j pos) b

theorem decode_le (k : Kind) (p : Nat) : decodeQa k p ≤ 255 := by
  cases k <;> simp only [decodeQa, qaC1, qaC2, qaHls] <;> split_ifs <;> decide

theorem wrap_small {q : Nat} (h : q ≤ 255) : wrap16 q = q := by
  simp only [wrap16, Int.bmod]; omega

theorem classAt_le (c : Config) (s : Scene) (packed : List Nat) (k : Nat) : classAt c s packed k ≤ 255 := by
  simp only [classAt]; split_ifs
  · exact Nat.le_refl _
  · exact decode_le _ _

theorem stackBlock_eq {c : Config} (ht : Tiled c) {s : Scene} {packed qa : List Nat} {bands : Nat → List Int} {i j : Nat}
    (hi : i < c.nby) (hj : j < c.nbx)
    (hq : s.qa = some packed) (hb : s.bands = some bands) (hl : ∀ b, b < 7 → (bands b).length = c.nRows * c.nCols)
    (hql : qa.length = c.nRows * c.nCols) (hqa : ∀ k, k < c.nRows * c.nCols → qa.getD k 0 = classAt c s packed k) :
    stackBlock c i j bands qa = some (content c s i j) := by
  simp only [stackBlock, blockOf_eq ht hi hj (hl 0 (by decide)) 0, blockOf_eq ht hi hj (hl 1 (by decide)) 0,
    blockOf_eq ht hi hj (hl 2 (by decide)) 0, blockOf_eq ht hi hj (hl 3 (by decide)) 0,
    blockOf_eq ht hi hj (hl 4 (by decide)) 0, blockOf_eq ht hi hj (hl 5 (by decide)) 0,
    blockOf_eq ht hi hj (hl 6 (by decide)) 0, blockOf_eq ht hi hj hql 0, Option.bind_eq_bind, Option.bind_some]
  congr 1
  refine List.map_congr_left fun pos hpos => ?_
  have hp := List.mem_range.1 hpos
  have hg : ∀ {α : Type} (g : Nat → α) (d : α), ((List.range (c.bh * c.bw)).map g).getD pos d = g pos := by
    intro α g d
    rw [List.getD_eq_getElem _ _ (by simpa using hp)]; simp
  simp only [hg]
  rw [hqa _ (pixel_lt ht hi hj hp), wrap_small (classAt_le _ _ _ _)]
  simp only [show List.range 8 = [0, 1, 2, 3, 4, 5, 6, 7] from rfl, List.map_cons, List.map_nil, valueAt, hb, hq, Option.getD_some]
  simp

/-- A block of an image shows the ground somewhere. -/
def Shows (c : Config) (s : Scene) (packed : List Nat) (i j : Nat) : Prop :=
  ∃ pos, pos < c.bh * c.bw ∧ Seen (classAt c s packed (pixel c i j pos))

open Classical in
theorem saveBlocks_eq {c : Config} (ht : Tiled c) {s : Scene} {packed qa : List Nat} {bands : Nat → List Int} {name : Name}
    (hq : s.qa = some packed) (hb : s.bands = some bands) (hl : ∀ b, b < 7 → (bands b).length = c.nRows * c.nCols)
    (hql : qa.length = c.nRows * c.nCols) (hqa : ∀ k, k < c.nRows * c.nCols → qa.getD k 0 = classAt c s packed k) :
    ∀ ids : List (Nat × Nat), (∀ x ∈ ids, x.1 < c.nby ∧ x.2 < c.nbx) →
    saveBlocks c name bands qa ids =
      .ok ((ids.filter fun x => decide (Shows c s packed x.1 x.2)).map fun x => ⟨x.2 + 1, x.1 + 1, name, content c s x.1 x.2⟩)
  | [], _ => rfl
  | (i, j) :: rest, h => by
    obtain ⟨hi, hj⟩ : i < c.nby ∧ j < c.nbx := h (i, j) (by simp)
    have ih := saveBlocks_eq ht (name := name) hq hb hl hql hqa rest (fun x hx => h x (by simp [hx]))
    have hiff : (0 ∈ (List.range (c.bh * c.bw)).map (fun pos => qa.getD (pixel c i j pos) 0) ∨
        1 ∈ (List.range (c.bh * c.bw)).map (fun pos => qa.getD (pixel c i j pos) 0) ∨
        3 ∈ (List.range (c.bh * c.bw)).map (fun pos => qa.getD (pixel c i j pos) 0)) ↔ Shows c s packed i j := by
      simp only [List.mem_map, List.mem_range, Shows, Seen]
      constructor
      · rintro (⟨pos, hp, e⟩ | ⟨pos, hp, e⟩ | ⟨pos, hp, e⟩) <;>
          (rw [hqa _ (pixel_lt ht hi hj hp)] at e; exact ⟨pos, hp, by omega⟩)
      · rintro ⟨pos, hp, e⟩
        have := hqa _ (pixel_lt ht hi hj hp)
        rcases e with e | e | e
        · exact Or.inl ⟨pos, hp, by omega⟩
        · exact Or.inr (Or.inl ⟨pos, hp, by omega⟩)
        · exact Or.inr (Or.inr ⟨pos, hp, by omega⟩)
    rw [saveBlocks, blockOf_eq ht hi hj hql 0]
    simp only [orUb, bind, Res.bind]
    by_cases hs : Shows c s packed i j
    · rw [if_pos (hiff.2 hs), stackBlock_eq ht hi hj hq hb hl hql hqa]
      simp only [orUb, Res.bind, ih, List.filter_cons, hs, decide_true, if_true, List.map_cons]
    · rw [if_neg (fun e => hs (hiff.1 e)), ih]
      simp [hs]

theorem mem_blockIds {c : Config} {x : Nat × Nat} : x ∈ blockIds c ↔ x.1 < c.nby ∧ x.2 < c.nbx := by
  obtain ⟨a, b⟩ := x
  simp [blockIds, List.mem_product]

theorem enoughClear_iff (t : ℚ) (qa : List Nat) : enoughClear t qa = true ↔ ClearEnough t qa := by
  rw [enoughClear, ClearEnough]
  by_cases h : 0 < t
  · rw [if_pos h]
    simp only [h, true_imp_iff]
    rw [List.countP_eq_length_filter, List.countP_eq_length_filter]
    split_ifs with h0
    · refine ⟨fun e => absurd e (by simp), fun e => absurd e.1 (by omega)⟩
    · have hpos : 0 < (qa.filter fun q => q ≠ 255).length := Nat.pos_of_ne_zero h0
      rw [decide_eq_true_eq, lt_div_iff₀ (by exact_mod_cast hpos)]
      exact ⟨fun e => ⟨hpos, e⟩, fun e => e.2⟩
  · rw [if_neg h]
    simp only [h, false_imp_iff, iff_true, decide_eq_true_eq]
    have : t ≤ 0 := not_lt.1 h
    linarith

open Classical in
/-- The files of a scene. -/
noncomputable def filesOf (c : Config) (date : Scene → Int) (name : Scene → Name) (s : Scene) : List File :=
  ((blockIds c).filter fun x => decide (Used c date x.1 x.2 s)).map fun x => ⟨x.2 + 1, x.1 + 1, name s, content c s x.1 x.2⟩

theorem used_iff {c : Config} {date : Scene → Int} {s : Scene} {packed : List Nat} {bands : Nat → List Int}
    (h : Admitted c s (date s) packed bands) (i j : Nat) : Used c date i j s ↔ Shows c s packed i j := by
  constructor
  · rintro ⟨p, b, ha, hs⟩
    have : p = packed := by have := ha.1.symm.trans h.1; simpa using this
    rw [← this]; exact hs
  · intro hs; exact ⟨packed, bands, h, hs⟩

theorem filesOf_none {c : Config} {date : Scene → Int} {name : Scene → Name} {s : Scene}
    (h : ∀ packed bands, ¬ Admitted c s (date s) packed bands) : filesOf c date name s = [] := by
  simp only [filesOf, List.map_eq_nil_iff, List.filter_eq_nil_iff, decide_eq_true_eq]
  rintro x - ⟨p, b, ha, -⟩
  exact h p b ha

theorem outside_iff (c : Config) (d : Int) : outside c d = false ↔ (∀ l, c.low = some l → l ≤ d) ∧ (∀ u, c.upp = some u → d ≤ u) := by
  simp only [outside, Bool.or_eq_false_iff]
  cases c.low <;> cases c.upp <;> simp

theorem dateOutside_eq {c : Config} {p : Parsed} {d : Int} (h : dateOf p.year p.doy = some d) : dateOutside c p = .ok (outside c d) := by
  rw [dateOutside]
  split_ifs with hs
  · simp [h, orRaise, Res.bind]
  · simp only [not_or, Option.not_isSome_iff_eq_none] at hs
    simp [outside, hs.1, hs.2]

theorem usesPath_iff (k : Kind) : k.usesPath = true ↔ k = .ard ∨ k = .ardC2 := by cases k <;> simp [Kind.usesPath]

theorem stackScene_eq {c : Config} (ht : Tiled c) {date : Scene → Int} {name : Scene → Name} {s : Scene} (hsz : Sized c s) {p : Parsed}
    (hk : Known c.kind s.folder (date s) p) (hn : name s = p.name) :
    stackScene c s = .ok (filesOf c date name s) := by
  rw [stackScene]
  cases hq : s.qa with
  | none =>
    rw [filesOf_none]
    rintro packed bands ⟨h, -⟩
    rw [hq] at h; exact absurd h (by simp)
  | some packed =>
    simp only
    have hun : ∀ {packed' bands'}, Admitted c s (date s) packed' bands' → packed' = packed := by
      intro packed' bands' h
      have := h.1.symm.trans hq; simpa using this
    by_cases hc : enoughClear c.threshold (packed.map (decodeQa c.kind)) = true
    rotate_left
    · rw [if_neg hc, filesOf_none]
      intro packed' bands' h
      have := h.2.2.1
      rw [hun h] at this
      exact hc ((enoughClear_iff _ _).2 this)
    rw [if_pos hc, hk.parsed]
    simp only [orRaise, bind, Res.bind, dateOutside_eq hk.date]
    by_cases ho : outside c (date s) = true
    · rw [if_pos ho, filesOf_none]
      intro packed' bands' h
      have := (outside_iff c (date s)).2 ⟨h.2.2.2.1, h.2.2.2.2.1⟩
      rw [ho] at this; exact absurd this (by simp)
    have ho' : outside c (date s) = false := by simpa using ho
    rw [if_neg ho, if_pos hk.bands]
    cases hb : s.bands with
    | none =>
      simp only
      rw [filesOf_none]
      rintro packed' bands' ⟨-, h, -⟩
      rw [hb] at h; exact absurd h (by simp)
    | some bands =>
      simp only
      have hlen := hsz.1 packed hq
      have hbl := hsz.2.1 bands hb
      have hadm : (SinglePath c → s.path.isSome) → Admitted c s (date s) packed bands := fun hp =>
        ⟨hq, hb, (enoughClear_iff _ _).1 hc, ((outside_iff _ _).1 ho').1, ((outside_iff _ _).1 ho').2, hp⟩
      have hids : ∀ x ∈ blockIds c, x.1 < c.nby ∧ x.2 < c.nbx := fun x hx => mem_blockIds.1 hx
      have hdec : ∀ k, k < c.nRows * c.nCols → (packed.map (decodeQa c.kind)).getD k 0 = decodeQa c.kind (packed.getD k 0) := by
        intro k hkk
        rw [List.getD_eq_getElem _ _ (by simp; omega), List.getD_eq_getElem _ _ (by omega)]; simp
      have hfin : ∀ qa : List Nat, (SinglePath c → s.path.isSome) → qa.length = c.nRows * c.nCols →
          (∀ k, k < c.nRows * c.nCols → qa.getD k 0 = classAt c s packed k) →
          saveBlocks c p.name bands qa (blockIds c) = .ok (filesOf c date name s) := by
        intro qa hp h1 h2
        rw [saveBlocks_eq ht hq hb hbl h1 h2 _ hids, filesOf, hn]
        congr 3
        funext x
        exact decide_eq_decide.2 (used_iff (hadm hp) x.1 x.2).symm
      by_cases hpth : c.kind.usesPath = true ∧ c.pathMap.isSome = true
      · rw [if_pos hpth]
        have hsp : SinglePath c := ⟨(usesPath_iff _).1 hpth.1, hpth.2⟩
        cases hid : s.path with
        | none =>
          simp only
          rw [filesOf_none]
          rintro packed' bands' ⟨-, -, -, -, -, h⟩
          have := h hsp
          rw [hid] at this; exact absurd this (by simp)
        | some id =>
          simp only
          obtain ⟨m, hm⟩ := Option.isSome_iff_exists.1 hpth.2
          have hml := hsz.2.2 m hm
          simp only [hm, maskPath, List.length_map, hml, hlen, if_true, orRaise]
          refine hfin _ (fun _ => by simp [hid]) (by simp [hlen, hml]) ?_
          intro k hkk
          rw [List.getD_eq_getElem _ _ (by simp [hlen, hml]; exact hkk), List.getElem_zipWith, classAt]
          have e1 : (packed.map (decodeQa c.kind))[k]'(by simp; omega) = decodeQa c.kind (packed.getD k 0) := by
            rw [← hdec k hkk, List.getD_eq_getElem]
          have e2 : m[k]? = some (m[k]'(by omega)) := List.getElem?_eq_getElem (by omega)
          rw [e1]
          by_cases hv : m[k]'(by omega) = id
          · rw [if_neg (by simp [hv]), if_neg]
            rintro ⟨-, m', id', h1, h2, h3⟩
            rw [hm] at h1; rw [hid] at h2
            simp only [Option.some.injEq] at h1 h2
            subst h1; subst h2
            exact h3 (by rw [e2, hv])
          · rw [if_pos hv, if_pos]
            refine ⟨hsp, m, id, hm, hid, ?_⟩
            rw [e2]; simpa using hv
      · rw [if_neg hpth]
        have hsp : ¬ SinglePath c := fun h => hpth ⟨(usesPath_iff _).2 h.1, h.2⟩
        refine hfin _ (fun h => absurd h hsp) (by simp [hlen]) ?_
        intro k hkk
        rw [hdec k hkk, classAt, if_neg (fun h => hsp h.1)]

/-! ## All scenes -/

/-- Same folder and same name. -/
def SameFile (f g : File) : Prop := f.bx = g.bx ∧ f.by_ = g.by_ ∧ f.name = g.name

theorem foldl_write : ∀ (l fs : List File), (l.Pairwise fun f g => ¬ SameFile f g) → (∀ f ∈ l, ∀ g ∈ fs, ¬ SameFile g f) →
    l.foldl write fs = l.reverse ++ fs
  | [], fs, _, _ => by simp
  | f :: l, fs, h1, h2 => by
    rw [List.pairwise_cons] at h1
    have hw : write fs f = f :: fs := by
      rw [write, List.filter_eq_self.2]
      intro g hg
      have := h2 f (by simp) g hg
      simpa only [SameFile, decide_eq_true_eq] using this
    rw [List.foldl_cons, hw, foldl_write l (f :: fs) h1.2]
    · simp
    · intro g hg k hk
      rcases List.mem_cons.1 hk with e | e
      · rw [e]; exact h1.1 g hg
      · exact h2 g (by simp [hg]) k e

theorem runScenes_eq {c : Config} (ht : Tiled c) {date : Scene → Int} {name : Scene → Name} : ∀ (scenes : List Scene) (fs : List File),
    (∀ s ∈ scenes, Sized c s ∧ ∃ p, Known c.kind s.folder (date s) p ∧ name s = p.name) →
    runScenes c scenes fs = .ok ((scenes.flatMap (filesOf c date name)).foldl write fs)
  | [], fs, _ => rfl
  | s :: ss, fs, h => by
    obtain ⟨h1, p, h2, h3⟩ := h s (by simp)
    rw [runScenes, stackScene_eq ht h1 h2 h3]
    simp only [bind, Res.bind]
    rw [runScenes_eq ht ss _ (fun t hts => h t (by simp [hts])), List.flatMap_cons, List.foldl_append]

theorem filesOf_name {c : Config} {date : Scene → Int} {name : Scene → Name} {s : Scene} {f : File}
    (h : f ∈ filesOf c date name s) : f.name = name s := by
  simp only [filesOf, List.mem_map] at h
  obtain ⟨x, -, e⟩ := h
  rw [← e]

theorem filesOf_pairwise (c : Config) (date : Scene → Int) (name : Scene → Name) (s : Scene) :
    (filesOf c date name s).Pairwise fun f g => ¬ SameFile f g := by
  rw [filesOf, List.pairwise_map]
  refine List.Pairwise.imp ?_ (List.Nodup.filter _ (List.Nodup.product List.nodup_range List.nodup_range))
  intro a b hab hs
  exact hab (Prod.ext (by have := hs.2.1; simpa using this) (by have := hs.1; simpa using this))

theorem files_pairwise (c : Config) (date : Scene → Int) (name : Scene → Name) : ∀ scenes : List Scene,
    (scenes.Pairwise fun s t => name s ≠ name t) →
    (scenes.flatMap (filesOf c date name)).Pairwise fun f g => ¬ SameFile f g
  | [], _ => by simp
  | s :: ss, h => by
    rw [List.pairwise_cons] at h
    rw [List.flatMap_cons, List.pairwise_append]
    refine ⟨filesOf_pairwise c date name s, files_pairwise c date name ss h.2, ?_⟩
    intro f hf g hg e
    obtain ⟨t, ht, hg'⟩ := List.mem_flatMap.1 hg
    exact h.1 t ht (by rw [← filesOf_name hf, ← filesOf_name hg', e.2.2])

theorem filter_unique {α : Type} [DecidableEq α] {l : List α} (hn : l.Nodup) {a : α} (ha : a ∈ l) (P : α → Bool) :
    (l.filter P).filter (fun x => x = a) = if P a then [a] else [] := by
  induction l with
  | nil => simp at ha
  | cons b l ih =>
    rw [List.nodup_cons] at hn
    by_cases hb : b = a
    · have : (l.filter P).filter (fun x => x = a) = [] := by
        rw [List.filter_eq_nil_iff]
        intro x hx
        have := (List.mem_filter.1 hx).1
        simp only [decide_eq_true_eq]
        rintro rfl
        exact hn.1 (hb ▸ this)
      rw [List.filter_cons]
      split_ifs with h1 h2 h2
      · rw [List.filter_cons, if_pos (by simp [hb]), this, hb]
      · exact absurd (hb ▸ h1) h2
      · exact absurd (hb ▸ h2) h1
      · exact this
    · have hal : a ∈ l := by rcases List.mem_cons.1 ha with e | e; exact absurd e.symm hb; exact e
      rw [List.filter_cons]
      split_ifs with h1 h2 h2
      · rw [List.filter_cons, if_neg (by simp [hb]), ih hn.2 hal, if_pos h2]
      · rw [List.filter_cons, if_neg (by simp [hb]), ih hn.2 hal, if_neg h2]
      · rw [ih hn.2 hal, if_pos h2]
      · rw [ih hn.2 hal, if_neg h2]

open Classical in
theorem folder_filesOf (c : Config) (date : Scene → Int) (name : Scene → Name) (s : Scene) {i j : Nat} (hi : i < c.nby) (hj : j < c.nbx) :
    folder (filesOf c date name s) i j = if Used c date i j s then [(name s, content c s i j)] else [] := by
  rw [Spec.folder, filesOf, List.filter_map, List.map_map]
  have hn : (blockIds c).Nodup := List.Nodup.product List.nodup_range List.nodup_range
  have hm : (i, j) ∈ blockIds c := mem_blockIds.2 ⟨hi, hj⟩
  have := filter_unique hn hm (fun x => decide (Used c date x.1 x.2 s))
  have e : ((blockIds c).filter fun x => decide (Used c date x.1 x.2 s)).filter
      ((fun f : File => decide (f.bx = j + 1 ∧ f.by_ = i + 1)) ∘ fun x : Nat × Nat => (⟨x.2 + 1, x.1 + 1, name s, content c s x.1 x.2⟩ : File))
      = ((blockIds c).filter fun x => decide (Used c date x.1 x.2 s)).filter fun x => x = (i, j) := by
    refine List.filter_congr fun x _ => ?_
    obtain ⟨a, b⟩ := x
    simp only [Function.comp, Prod.mk.injEq, decide_eq_decide]
    omega
  rw [e, this]
  simp only [decide_eq_true_eq]
  split_ifs <;> simp

theorem folder_append (a b : List File) (i j : Nat) : folder (a ++ b) i j = folder a i j ++ folder b i j := by
  simp [Spec.folder]

open Classical in
theorem folder_flatMap (c : Config) (date : Scene → Int) (name : Scene → Name) {i j : Nat} (hi : i < c.nby) (hj : j < c.nbx) :
    ∀ scenes : List Scene, folder (scenes.flatMap (filesOf c date name)) i j =
      (scenes.filter fun s => decide (Used c date i j s)).map fun s => (name s, content c s i j)
  | [] => rfl
  | s :: ss => by
    rw [List.flatMap_cons, folder_append, folder_filesOf c date name s hi hj, folder_flatMap c date name hi hj ss, List.filter_cons]
    simp only [decide_eq_true_eq]
    split_ifs <;> simp

theorem folder_perm {a b : List File} (h : a.Perm b) (i j : Nat) : (folder a i j).Perm (folder b i j) :=
  (h.filter _).map _

open Classical in
/-- What the folder of a block holds in the end. -/
theorem folder_run {c : Config} (ht : Tiled c) {date : Scene → Int} {name : Scene → Name} {scenes : List Scene}
    (h : ∀ s ∈ scenes, Sized c s ∧ ∃ p, Known c.kind s.folder (date s) p ∧ name s = p.name)
    (hd : scenes.Pairwise fun s t => name s ≠ name t) :
    ∃ fs, runScenes c scenes [] = .ok fs ∧ ∀ i j, i < c.nby → j < c.nbx →
      (folder fs i j).Perm ((scenes.filter fun s => decide (Used c date i j s)).map fun s => (name s, content c s i j)) := by
  refine ⟨_, runScenes_eq ht scenes [] h, fun i j hi hj => ?_⟩
  rw [foldl_write _ _ (files_pairwise c date name scenes hd) (by simp), List.append_nil, ← folder_flatMap c date name hi hj]
  exact folder_perm (List.reverse_perm _) i j

/-! ## Reading -/

theorem Le.trans {a b d : Int × Name × Block} (h1 : Le a b) (h2 : Le b d) : Le a d := by
  simp only [Le] at *
  rcases h1 with h1 | ⟨h1, h1'⟩ <;> rcases h2 with h2 | ⟨h2, h2'⟩
  · left; omega
  · left; omega
  · left; omega
  · right; exact ⟨by omega, List.le_trans h1' h2'⟩

theorem Le.total (a b : Int × Name × Block) : Le a b ∨ Le b a := by
  simp only [Le]
  rcases lt_trichotomy a.1 b.1 with h | h | h
  · left; left; exact h
  · rcases List.le_total a.2.1 b.2.1 with g | g
    · left; right; exact ⟨h, g⟩
    · right; right; exact ⟨h.symm, g⟩
  · right; left; exact h

theorem Le.name {a b : Int × Name × Block} (h1 : Le a b) (h2 : Le b a) : a.2.1 = b.2.1 := by
  simp only [Le] at *
  rcases h1 with h1 | ⟨h1, h1'⟩ <;> rcases h2 with h2 | ⟨h2, h2'⟩
  · omega
  · omega
  · omega
  · exact List.le_antisymm h1' h2'

instance : Std.Total Le := ⟨Le.total⟩
instance : IsTrans _ Le := ⟨fun _ _ _ => Le.trans⟩

theorem pairwise_ne {α β : Type} (f : α → β) : ∀ {l : List α}, (l.Pairwise fun a b => f a ≠ f b) → ∀ {a b}, a ∈ l → b ∈ l → a ≠ b → f a ≠ f b
  | [], _, a, b, ha, _, _ => absurd ha (by simp)
  | x :: l, h, a, b, ha, hb, hab => by
    rw [List.pairwise_cons] at h
    rcases List.mem_cons.1 ha with e | e <;> rcases List.mem_cons.1 hb with g | g
    · exact absurd (e.trans g.symm) hab
    · rw [e]; exact h.1 b g
    · rw [g]; exact (h.1 a e).symm
    · exact pairwise_ne f h.2 e g hab

theorem sort_unique {l m : List (Int × Name × Block)} (h : l.Perm m) (hd : l.Pairwise fun a b => a.2.1 ≠ b.2.1) :
    l.insertionSort Le = m.insertionSort Le := by
  have hp : (l.insertionSort Le).Perm (m.insertionSort Le) :=
    (List.perm_insertionSort _ _).trans (h.trans (List.perm_insertionSort _ _).symm)
  refine List.Perm.eq_of_pairwise ?_ (List.pairwise_insertionSort _ _) (List.pairwise_insertionSort _ _) hp
  intro a b ha hb h1 h2
  have ha' : a ∈ l := (List.perm_insertionSort _ _).mem_iff.1 ha
  have hb' : b ∈ l := h.mem_iff.2 ((List.perm_insertionSort _ _).mem_iff.1 hb)
  have hn := Le.name h1 h2
  by_contra hab
  exact pairwise_ne (fun x : Int × Name × Block => x.2.1) hd ha' hb' hab hn

open Classical in
theorem bounds_eq (low high : Int) {l : List (Int × Name × Block)} (hl : l ≠ []) :
    ((bound low (fun d => decide (low ≤ d)) l).bind fun l => bound high (fun d => decide (d ≤ high)) l) =
      if l.filter (fun x => decide (InRange low high x.1)) = [] then .raised
      else .ok (l.filter fun x => decide (InRange low high x.1)) := by
  by_cases h1 : 0 < low <;> by_cases h2 : 0 < high
  · have e : (l.filter fun x => decide (low ≤ x.1)).filter (fun x => decide (x.1 ≤ high)) =
        l.filter fun x => decide (InRange low high x.1) := by
      rw [List.filter_filter]
      refine List.filter_congr fun x _ => ?_
      simp [InRange, h1, h2, Bool.and_comm]
    by_cases h3 : (l.filter fun x => decide (low ≤ x.1)) = []
    · have e' : (l.filter fun x => decide (InRange low high x.1)) = [] := by rw [← e, h3]; rfl
      simp only [bound, if_pos h1, if_pos h3, Res.bind, if_pos e']
    · simp only [bound, if_pos h1, if_pos h2, if_neg h3, Res.bind, e]
  · have e : (l.filter fun x => decide (low ≤ x.1)) = l.filter fun x => decide (InRange low high x.1) := by
      refine List.filter_congr fun x _ => ?_
      simp [InRange, h1, h2]
    rw [bound, if_pos h1]
    simp only [e]
    split_ifs with h3
    · rfl
    · simp only [Res.bind, bound, if_neg h2]
  · have e : (l.filter fun x => decide (x.1 ≤ high)) = l.filter fun x => decide (InRange low high x.1) := by
      refine List.filter_congr fun x _ => ?_
      simp [InRange, h1, h2]
    simp only [bound, if_neg h1, Res.bind, if_pos h2, e]
  · have e : (l.filter fun x => decide (InRange low high x.1)) = l := by
      rw [List.filter_eq_self]
      intro x _
      simp [InRange, h1, h2]
    rw [if_neg (by rw [e]; exact hl), e]
    simp only [bound, if_neg h1, Res.bind, if_neg h2]

open Classical in
theorem getStackDate_eq {npix : Nat} {files : List (Name × Block)} {m : List Scene} {date : Scene → Int} {name : Scene → Name}
    {data : Scene → Block} (low high : Int) (hp : files.Perm (m.map fun s => (name s, data s)))
    (h : ∀ s ∈ m, dateOfFile (name s) = some (date s) ∧ ((name s).head? = some 'L' || (name s).head? = some 'S') = true ∧
      (data s).length = npix)
    (hd : m.Pairwise fun s t => name s ≠ name t) :
    getStackDate npix files low high =
      if m = [] then .ok none
      else if m.filter (fun s => decide (InRange low high (date s))) = [] then .raised
      else .ok (some ((((m.filter fun s => decide (InRange low high (date s))).map fun s => (date s, name s, data s)).insertionSort Le).map
        fun x => (x.1, x.2.2))) := by
  have hmem : ∀ f ∈ files, ∃ s ∈ m, f = (name s, data s) := by
    intro f hf
    obtain ⟨s, hs, e⟩ := List.mem_map.1 (hp.mem_iff.1 hf)
    exact ⟨s, hs, e.symm⟩
  have hfil : (files.filter fun f => f.1.head? = some 'L' || f.1.head? = some 'S') = files := by
    rw [List.filter_eq_self]
    intro f hf
    obtain ⟨s, hs, e⟩ := hmem f hf
    rw [e]; exact (h s hs).2.1
  rw [getStackDate]
  simp only [hfil]
  by_cases hm : m = []
  · have : files = [] := by rw [hm] at hp; simpa using hp
    rw [if_pos this, if_pos hm]
  have hne : files ≠ [] := by
    intro e; rw [e] at hp
    exact hm (by simpa using hp.symm)
  rw [if_neg hne, if_neg hm]
  have hmap : (files.mapM fun f => (dateOfFile f.1).map fun d => (d, f)) = some (files.map fun f => ((dateOfFile f.1).getD 0, f)) := by
    refine ChangeMap.mapM_some _ _ _ fun f hf => ?_
    obtain ⟨s, hs, e⟩ := hmem f hf
    rw [e]
    simp only [(h s hs).1, Option.map_some, Option.getD_some]
  rw [hmap]
  simp only [orRaise, bind, Res.bind]
  generalize hl : (files.map fun f => ((dateOfFile f.1).getD 0, f)) = l
  have hlne : l ≠ [] := by rw [← hl]; simpa using hne
  have hlp : l.Perm (m.map fun s => (date s, name s, data s)) := by
    rw [← hl]
    refine (hp.map _).trans ?_
    rw [List.map_map]
    refine List.Perm.of_eq (List.map_congr_left fun s hs => ?_)
    simp only [Function.comp, (h s hs).1, Option.getD_some]
  have hb := bounds_eq low high hlne
  have hfp : (l.filter fun x => decide (InRange low high x.1)).Perm
      ((m.filter fun s => decide (InRange low high (date s))).map fun s => (date s, name s, data s)) := by
    refine (hlp.filter _).trans ?_
    rw [List.filter_map]
    exact List.Perm.refl _
  generalize hA : (l.filter fun x => decide (InRange low high x.1)) = A at hb hfp
  generalize hB : (m.filter fun s => decide (InRange low high (date s))) = B at hfp
  have hcomb : ∀ k : List (Int × Name × Block) → Res (Option (List (Int × Block))),
      Res.bind (bound low (fun d => decide (low ≤ d)) l) (fun l => Res.bind (bound high (fun d => decide (d ≤ high)) l) k) =
        Res.bind (if A = [] then .raised else .ok A) k := by
    intro k
    rw [← hb]
    cases bound low (fun d => decide (low ≤ d)) l <;> rfl
  have := hcomb fun l => if (l.insertionSort Le).all fun x => decide (x.2.2.length = npix) then
      .ok (some ((l.insertionSort Le).map fun x => (x.1, x.2.2))) else .raised
  refine Eq.trans this ?_
  have hBm : ∀ s ∈ B, s ∈ m := fun s hs => by rw [← hB] at hs; exact (List.mem_filter.1 hs).1
  by_cases hBe : B = []
  · have : A = [] := by rw [hBe] at hfp; simpa using hfp
    rw [if_pos this, if_pos hBe]; rfl
  · have hAe : A ≠ [] := by
      intro e; rw [e] at hfp
      exact hBe (by simpa using hfp.symm)
    rw [if_neg hAe, if_neg hBe]
    have hBd : (B.map fun s => (date s, name s, data s)).Pairwise fun a b => a.2.1 ≠ b.2.1 := by
      rw [List.pairwise_map, ← hB]
      exact hd.filter _
    have hs : A.insertionSort Le = (B.map fun s => (date s, name s, data s)).insertionSort Le := (sort_unique hfp.symm hBd).symm
    show (if (A.insertionSort Le).all fun x => decide (x.2.2.length = npix) then _ else _) = _
    rw [hs, if_pos]
    rw [List.all_eq_true]
    intro x hx
    obtain ⟨s, hsB, e⟩ := List.mem_map.1 ((List.perm_insertionSort _ _).mem_iff.1 hx)
    rw [← e]
    simpa using (h s (hBm s hsB)).2.2

end Pycold.Stack
