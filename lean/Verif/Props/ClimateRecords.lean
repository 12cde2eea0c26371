import Verif.Props.Climate

/-! C128: parsing of records, the search for a station, and the cache of addresses. -/

namespace Verif.Climate

/-! ### Records -/

lemma lookup_zip {β : Type} (name : String) : ∀ (names : List String) (l : List β), (names.zip l).lookup name = if h : names.idxOf name < names.length ∧ names.idxOf name < l.length then some (l[names.idxOf name]'h.2) else none
  | [], l => by simp
  | n :: ns, [] => by simp
  | n :: ns, x :: xs => by
    rw [List.zip_cons_cons, List.lookup_cons]
    by_cases c : name = n
    · subst c; simp
    · have c' : (name == n) = false := by simpa using c
      rw [c', lookup_zip name ns xs]
      simp [List.idxOf_cons_ne _ (Ne.symm c)]

/-- the position of a field in a line -/
def position (name : String) : ℕ := gsod_fields.idxOf name

lemma word_eq {fields : List (List Char)} (hf : 20 ≤ fields.length) {name : String} (hn : name ∈ gsod_fields) : word fields name = .ok (fields.getD (position name) []) := by
  have h1 : gsod_fields.idxOf name < gsod_fields.length := List.idxOf_lt_length_iff.2 hn
  have h2 : gsod_fields.idxOf name < fields.length := lt_of_lt_of_le h1 (le_trans (by decide) hf)
  unfold word
  rw [lookup_zip, dif_pos ⟨h1, h2⟩]
  simp [position, h2]

/-- the number written in a word: None for the codes of missing data, whatever flags follow -/
noncomputable def reading (toFloat : List Char → Py ℝ) (t : List Char) : Py (Option ℝ) :=
  if stripFlags t = "99.99".toList ∨ stripFlags t = "999.9".toList ∨ stripFlags t = "9999.9".toList then .ok none else (toFloat (stripFlags t)).map some

/-- C128: a complete line (20 words, whose numbers, counts and date can be read, and six indicators): every field is read from its own column; temperatures are converted from degrees Fahrenheit to kelvin and the others by the factor
of their unit; missing data is None. -/
theorem C128_parse {δ : Type} {toFloat : List Char → Py ℝ} {toInt : List Char → Py ℤ} {toDate : List Char → Py δ} {fields : List (List Char)} (hf : 20 ≤ fields.length)
    {date : δ} (hdate : toDate (fields.getD 0 []) = .ok date)
    {x : String → Option ℝ} (hx : ∀ name ∈ gsod_float_fields, reading toFloat (fields.getD (position name) []) = .ok (x name))
    {c : String → ℤ} (hc : ∀ name ∈ gsod_int_fields, toInt (fields.getD (position name) []) = .ok (c name))
    {a b d e f g : Char} (h6 : fields.getD 19 [] = [a, b, d, e, f, g]) (SI : Bool) :
    gsod_day_parser toFloat toInt toDate fields SI = .ok ⟨date,
      if SI then [(x "TEMP").map fun v => (v + 459.67) * (5 / 9), (x "DEWP").map fun v => (v + 459.67) * (5 / 9), (x "SLP").map (· * 100), (x "STP").map (· * 100), (x "VISIB").map (· * 1609.344), (x "WDSP").map (· * (1852 / 3600)),
        (x "MXSPD").map (· * (1852 / 3600)), (x "GUST").map (· * (1852 / 3600)), (x "MAX").map fun v => (v + 459.67) * (5 / 9), (x "MIN").map fun v => (v + 459.67) * (5 / 9), (x "PRCP").map (· * 0.0254), (x "SNDP").map (· * 0.0254)]
      else gsod_float_fields.map x,
      gsod_int_fields.map c, [a == '1', b == '1', d == '1', e == '1', f == '1', g == '1']⟩ := by
  have sub1 : ∀ name ∈ gsod_float_fields, name ∈ gsod_fields := by decide
  have sub2 : ∀ name ∈ gsod_int_fields, name ∈ gsod_fields := by decide
  have hF : gsod_float_fields.mapM (floatField toFloat fields) = .ok (gsod_float_fields.map x) := by
    refine mapM_ok fun name hn => ?_
    have h := hx name hn
    unfold floatField
    rw [word_eq hf (sub1 name hn), Py.ok_bind]
    unfold reading at h
    have hb : (stripFlags (fields.getD (position name) []) ∈ badValues) ↔ (stripFlags (fields.getD (position name) []) = "99.99".toList ∨ stripFlags (fields.getD (position name) []) = "999.9".toList ∨ stripFlags (fields.getD (position name) []) = "9999.9".toList) := by
      simp only [badValues, List.mem_cons, List.not_mem_nil, or_false]
    by_cases k : stripFlags (fields.getD (position name) []) ∈ badValues
    · rw [if_pos (hb.1 k)] at h
      rw [if_pos k, h]
    · rw [if_neg (fun k' => k (hb.2 k'))] at h
      rw [if_neg k]
      cases ht : toFloat (stripFlags (fields.getD (position name) [])) with
      | error e => rw [ht] at h; cases h
      | ok v => rw [ht] at h; exact h
  have hI : gsod_int_fields.mapM (intField toInt fields) = .ok (gsod_int_fields.map c) := by
    refine mapM_ok fun name hn => ?_
    unfold intField
    rw [word_eq hf (sub2 name hn), Py.ok_bind, hc name hn]
  have w0 : word fields "DATE" = .ok (fields.getD 0 []) := word_eq hf (by decide)
  have w19 : word fields "FRSHTT" = .ok (fields.getD 19 []) := word_eq hf (by decide)
  unfold gsod_day_parser
  rw [w0, Py.ok_bind, hdate, Py.ok_bind, hF, Py.ok_bind]
  dsimp only
  rw [hI, Py.ok_bind, w19, Py.ok_bind, h6]
  rw [if_neg (by simp)]
  simp only [Py.pure_eq, Except.ok.injEq, GsodDay.mk.injEq, true_and]
  refine ⟨?_, rfl⟩
  cases SI
  · rfl
  · have m1 : (Const.mile : ℝ) = 1609.344 := by norm_num [Const.mile, Const.yard, Const.foot, Const.inch]
    have m2 : (Const.inch : ℝ) = 0.0254 := by norm_num [Const.inch]
    have m3 : (Const.knot : ℝ) = 1852 / 3600 := by norm_num [Const.knot, Const.nautical_mile, Const.hour, Const.minute]
    have s0 : toSI "TEMP" = fun v => (v + 459.67) * (5 / 9) := by funext v; simp only [toSI, String.reduceEq, or_false, or_true, false_or, true_or, if_true, if_false, m1, m2, m3]
    have s1 : toSI "DEWP" = fun v => (v + 459.67) * (5 / 9) := by funext v; simp only [toSI, String.reduceEq, or_false, or_true, false_or, true_or, if_true, if_false, m1, m2, m3]
    have s2 : toSI "SLP" = fun v => v * 100 := by funext v; simp only [toSI, String.reduceEq, or_false, or_true, false_or, true_or, if_true, if_false, m1, m2, m3]
    have s3 : toSI "STP" = fun v => v * 100 := by funext v; simp only [toSI, String.reduceEq, or_false, or_true, false_or, true_or, if_true, if_false, m1, m2, m3]
    have s4 : toSI "VISIB" = fun v => v * 1609.344 := by funext v; simp only [toSI, String.reduceEq, or_false, or_true, false_or, true_or, if_true, if_false, m1, m2, m3]
    have s5 : toSI "WDSP" = fun v => v * (1852 / 3600) := by funext v; simp only [toSI, String.reduceEq, or_false, or_true, false_or, true_or, if_true, if_false, m1, m2, m3]
    have s6 : toSI "MXSPD" = fun v => v * (1852 / 3600) := by funext v; simp only [toSI, String.reduceEq, or_false, or_true, false_or, true_or, if_true, if_false, m1, m2, m3]
    have s7 : toSI "GUST" = fun v => v * (1852 / 3600) := by funext v; simp only [toSI, String.reduceEq, or_false, or_true, false_or, true_or, if_true, if_false, m1, m2, m3]
    have s8 : toSI "MAX" = fun v => (v + 459.67) * (5 / 9) := by funext v; simp only [toSI, String.reduceEq, or_false, or_true, false_or, true_or, if_true, if_false, m1, m2, m3]
    have s9 : toSI "MIN" = fun v => (v + 459.67) * (5 / 9) := by funext v; simp only [toSI, String.reduceEq, or_false, or_true, false_or, true_or, if_true, if_false, m1, m2, m3]
    have s10 : toSI "PRCP" = fun v => v * 0.0254 := by funext v; simp only [toSI, String.reduceEq, or_false, or_true, false_or, true_or, if_true, if_false, m1, m2, m3]
    have s11 : toSI "SNDP" = fun v => v * 0.0254 := by funext v; simp only [toSI, String.reduceEq, or_false, or_true, false_or, true_or, if_true, if_false, m1, m2, m3]
    simp only [if_true, gsod_float_fields, List.map_cons, List.map_nil, List.zipWith_cons_cons, List.zipWith_nil_right, s0, s1, s2, s3, s4, s5, s6, s7, s8, s9, s10, s11]

/-- C128: a line that ends early raises KeyError if what precedes can be read; a word of fewer than six indicators TypeError. -/
theorem C128_parse_short {δ : Type} {toFloat : List Char → Py ℝ} {toInt : List Char → Py ℤ} {toDate : List Char → Py δ} {fields : List (List Char)} (hf : fields.length < 20)
    (hdate : ∀ t, ∃ d, toDate t = .ok d) (hfl : ∀ t, ∃ d, toFloat t = .ok d) (hi : ∀ t, ∃ d, toInt t = .ok d) (SI : Bool) :
    gsod_day_parser toFloat toInt toDate fields SI = .error .keyError := by
  have hw : ∀ name, word fields name = .error .keyError ∨ ∃ t, word fields name = .ok t := fun name => by
    unfold word
    cases (gsod_fields.zip fields).lookup name
    · exact .inl rfl
    · exact .inr ⟨_, rfl⟩
  have h19 : word fields "FRSHTT" = .error .keyError := by
    unfold word
    rw [lookup_zip, dif_neg]
    have : gsod_fields.idxOf "FRSHTT" = 19 := by decide
    omega
  unfold gsod_day_parser
  rcases hw "DATE" with h | ⟨t, h⟩
  · rw [h]; rfl
  rw [h, Py.ok_bind]
  obtain ⟨d, hd⟩ := hdate t
  rw [hd, Py.ok_bind]
  have hF : ∀ name, floatField toFloat fields name = .error .keyError ∨ ∃ t, floatField toFloat fields name = .ok t := fun name => by
    unfold floatField
    rcases hw name with h | ⟨t, h⟩
    · left; rw [h]; rfl
    · right; rw [h, Py.ok_bind]
      split_ifs
      · exact ⟨_, rfl⟩
      · obtain ⟨v, hv⟩ := hfl (stripFlags t)
        rw [hv]; exact ⟨_, rfl⟩
  have hI : ∀ name, intField toInt fields name = .error .keyError ∨ ∃ t, intField toInt fields name = .ok t := fun name => by
    unfold intField
    rcases hw name with h | ⟨t, h⟩
    · left; rw [h]; rfl
    · right; rw [h, Py.ok_bind]; exact hi t
  have hM : ∀ {β : Type} (f : String → Py β), (∀ name, f name = .error .keyError ∨ ∃ t, f name = .ok t) → ∀ l : List String, l.mapM f = .error .keyError ∨ ∃ r, l.mapM f = .ok r := by
    intro β f hf l
    by_cases c : ∃ x ∈ l, f x = .error .keyError
    · left; exact mapM_error (fun x _ => (hf x).symm) c
    · right
      push Not at c
      have : ∀ x ∈ l, ∃ t, f x = .ok t := fun x hx => (hf x).resolve_left (c x hx)
      induction l with
      | nil => exact ⟨[], rfl⟩
      | cons x xs ih =>
        obtain ⟨t, ht⟩ := this x (by simp)
        obtain ⟨r, hr⟩ := ih (fun y hy => c y (by simp [hy])) (fun y hy => this y (by simp [hy]))
        exact ⟨t :: r, by rw [List.mapM_cons, ht, Py.ok_bind, hr]; rfl⟩
  rcases hM _ hF gsod_float_fields with h | ⟨r, h⟩
  · rw [h]; rfl
  rw [h, Py.ok_bind]
  dsimp only
  rcases hM _ hI gsod_int_fields with h | ⟨r, h⟩
  · rw [h]; rfl
  rw [h, Py.ok_bind, h19]
  rfl

/-- C128 (finding): the codes of missing data are the same for all columns: a sea-level or station pressure of 999.9 mbar, a common one, is read as missing. -/
theorem C128_pressure_lost (toFloat : List Char → Py ℝ) : reading toFloat "999.9".toList = .ok none ∧ reading toFloat "999.9*".toList = .ok none := by
  constructor
  · rw [reading, if_pos]; right; left; decide
  · rw [reading, if_pos]; right; left; decide

/-! ### The closest station -/

/-- C128: if the k-d tree answers with the stations in the order of their distance (`all`), the result is the first of them whose records end after the given date, whatever the number searched at first; ValueError if there is none. -/
theorem C128_closest_station (all : List Station) (date : ℤ) (match_max : ℕ) (hm : 0 < match_max) :
    get_closest_station (fun k => all.take k) all.length date match_max =
      match all.find? (fun s => decide (s.END > date)) with
      | some s => .ok s
      | none => .error .valueError := by
  induction h : all.length - match_max using Nat.strong_induction_on generalizing match_max with
  | _ n ih =>
    rw [get_closest_station]
    by_cases c : match_max < all.length
    · rw [min_eq_left c.le]
      cases hf : (all.take match_max).find? (fun s => decide (s.END > date)) with
      | some s =>
        have : all.find? (fun s => decide (s.END > date)) = some s := by
          conv_lhs => rw [← List.take_append_drop match_max all]
          rw [List.find?_append, hf]; rfl
        rw [this]
      | none =>
        simp only
        rw [dif_pos ⟨c, hm⟩, ih (all.length - match_max * 10) (by omega) (match_max * 10) (by omega) rfl]
    · rw [min_eq_right (by omega), List.take_length]
      cases all.find? (fun s => decide (s.END > date)) with
      | some s => rfl
      | none => simp only; rw [dif_neg (by omega)]

/-- the tree's measure of distance: Euclid's, of latitude and longitude in degrees -/
noncomputable def dist2 (lat lon : ℝ) (s : Station) : ℝ := (s.lat - lat) ^ 2 + (s.lon - lon) ^ 2

/-- C128 (finding): the distance knows no geography: for a point at longitude 179.9 on the equator the tree puts a station 9.9 degrees to the west before one 0.2 degrees to the east, across the antimeridian. -/
theorem C128_antimeridian (d : ℤ) : dist2 0 179.9 ⟨0, 170, d⟩ < dist2 0 179.9 ⟨0, -179.9, d⟩ := by
  norm_num [dist2]

/-! ### The cache of addresses -/

section
variable {κ : Type} [DecidableEq κ] (key : String → κ) (online : String → Option (ℝ × ℝ))

/-- the tables reached from the empty one by any sequence of calls of `geocode` -/
def after (calls : List String) : Option (List (κ × ℝ × ℝ)) := calls.foldl (fun t a => (geocode key online t a).1) (some [])

lemma after_spec (calls : List String) : ∃ t, after key online calls = some t ∧ ∀ k l, t.lookup k = some l ↔ (∃ a, (calls.find? fun a => decide (key a = k ∧ (online a).isSome)) = some a ∧ online a = some l) := by
  induction calls using List.reverseRecOn with
  | nil => exact ⟨[], rfl, by simp⟩
  | append_singleton cs a ih =>
    obtain ⟨t, ht, hs⟩ := ih
    have hstep : after key online (cs ++ [a]) = (geocode key online (some t) a).1 := by
      unfold after at ht ⊢
      rw [List.foldl_append, ht]
      rfl
    rw [hstep]
    unfold geocode cached_address
    simp only [Option.bind_some]
    have keyl : ∀ k l, (∃ b, ((cs ++ [a]).find? fun a => decide (key a = k ∧ (online a).isSome)) = some b ∧ online b = some l) ↔
        ((∃ b, (cs.find? fun a => decide (key a = k ∧ (online a).isSome)) = some b ∧ online b = some l) ∨ ((cs.find? fun a => decide (key a = k ∧ (online a).isSome)) = none ∧ key a = k ∧ online a = some l)) := by
      intro k l
      rw [List.find?_append]
      cases hc : cs.find? fun a => decide (key a = k ∧ (online a).isSome) with
      | some b => simp
      | none =>
        simp only [Option.none_or, reduceCtorEq, false_and, exists_false, true_and, false_or, List.find?_cons, List.find?_nil]
        by_cases p : key a = k ∧ (online a).isSome
        · simp [p.1, p.2]
        · rw [decide_eq_false p]
          simp only [reduceCtorEq, false_and, exists_false, false_iff]
          rintro ⟨p1, p2⟩
          exact p ⟨p1, by rw [p2]; rfl⟩
    have hnone : ∀ k, t.lookup k = none → (cs.find? fun a => decide (key a = k ∧ (online a).isSome)) = none := by
      intro k hk
      by_contra hc
      obtain ⟨b, hb⟩ := Option.ne_none_iff_exists'.1 hc
      have hb2 := List.find?_some hb
      simp only [decide_eq_true_eq] at hb2
      obtain ⟨l, hl⟩ := Option.isSome_iff_exists.1 hb2.2
      rw [(hs k l).2 ⟨b, hb, hl⟩] at hk
      cases hk
    cases hl : t.lookup (key a) with
    | some l =>
      refine ⟨t, rfl, fun k l' => ?_⟩
      rw [keyl, hs k l']
      constructor
      · exact .inl
      · rintro (h | ⟨h1, h2, h3⟩)
        · exact h
        · obtain ⟨b, hb, -⟩ := (hs (key a) l).1 hl
          rw [h2, h1] at hb
          cases hb
    | none =>
      cases ho : online a with
      | none =>
        refine ⟨t, rfl, fun k l' => ?_⟩
        rw [keyl, hs k l', ho]
        simp
      | some l0 =>
        refine ⟨t ++ [(key a, l0)], ?_, fun k l' => ?_⟩
        · simp [cache_address, hl]
        · rw [keyl, ← hs k l', List.lookup_append]
          cases hk : t.lookup k with
          | some l1 =>
            simp only [Option.some_or, Option.some.injEq]
            constructor
            · exact .inl
            · rintro (h | ⟨h1, h2, -⟩)
              · exact h
              · rw [← h2, hl] at hk; cases hk
          | none =>
            rw [ho]
            simp only [Option.none_or, reduceCtorEq, false_or, hnone k hk, true_and, List.lookup_cons, List.lookup_nil]
            by_cases c : k = key a
            · subst c; simp
            · have : (k == key a) = false := by simpa using c
              rw [this]
              simp [Ne.symm c]

/-- C128: geocode after any history of calls: an address whose key was never found before is looked up online; otherwise the stored answer is given without going online, and it is the online answer for the first address of
the history with the same key that had one. An address unknown to the geocoder raises AttributeError. With a broken database every call goes online. -/
theorem C128_geocode (calls : List String) (address : String) :
    (∀ a, (calls.find? fun a => decide (key a = key address ∧ (online a).isSome)) = some a → ∃ l, online a = some l ∧ (geocode key online (after key online calls) address).2 = (.ok l, false)) ∧
    ((calls.find? fun a => decide (key a = key address ∧ (online a).isSome)) = none → ∀ l, online address = some l → (geocode key online (after key online calls) address).2 = (.ok l, true)) ∧
    ((calls.find? fun a => decide (key a = key address ∧ (online a).isSome)) = none → online address = none → (geocode key online (after key online calls) address).2 = (.error .attributeError, true)) ∧
    (∀ l, online address = some l → geocode key online none address = (none, .ok l, true)) := by
  obtain ⟨t, ht, hs⟩ := after_spec key online calls
  rw [ht]
  refine ⟨fun a ha => ?_, fun hn l hl => ?_, fun hn ho => ?_, fun l hl => by simp [geocode, hl]⟩
  · have ha2 := List.find?_some ha
    simp only [decide_eq_true_eq] at ha2
    obtain ⟨l, hl⟩ := Option.isSome_iff_exists.1 ha2.2
    refine ⟨l, hl, ?_⟩
    have := (hs _ l).2 ⟨a, ha, hl⟩
    simp [geocode, cached_address, this]
  · have : t.lookup (key address) = none := by
      by_contra hc
      obtain ⟨l', hl'⟩ := Option.ne_none_iff_exists'.1 hc
      obtain ⟨b, hb, -⟩ := (hs _ _).1 hl'
      rw [hn] at hb; cases hb
    simp [geocode, cached_address, this, hl]
  · have : t.lookup (key address) = none := by
      by_contra hc
      obtain ⟨l', hl'⟩ := Option.ne_none_iff_exists'.1 hc
      obtain ⟨b, hb, -⟩ := (hs _ _).1 hl'
      rw [hn] at hb; cases hb
    simp [geocode, cached_address, this, ho]

/-- C128 (finding): the address column has the type STRING, which SQLite treats as numeric: addresses that are numerals of one number, such as the postal codes 02134 and 2134, have one key, so that the second is given the location of
the first. -/
theorem C128_geocode_collision {a b : String} (h : key a = key b) {l : ℝ × ℝ} (hl : online a = some l) : (geocode key online (after key online [a]) b).2 = (.ok l, false) := by
  obtain ⟨l', h1, h2⟩ := (C128_geocode key online [a] b).1 a (by simp [h, hl])
  rw [hl] at h1
  cases h1
  exact h2

end

/-- two addresses with one key, of a key that drops leading zeros -/
example : ∃ key : String → List Char, key "02134" = key "2134" ∧ key "Boston" ≠ key "2134" :=
  ⟨fun s => s.toList.dropWhile (· == '0'), by decide, by decide⟩

/-- a complete line, readers that read every word as zero -/
example : ∃ fields : List (List Char), 20 ≤ fields.length ∧ fields.getD 19 [] = ['0', '1', '0', '0', '0', '0'] :=
  ⟨List.replicate 19 ['0'] ++ [['0', '1', '0', '0', '0', '0']], by simp, by decide⟩

end Verif.Climate
