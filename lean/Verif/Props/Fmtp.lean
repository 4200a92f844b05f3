import Verif.Spec.Sample
import Verif.Lemmas.Fmtp
import Mathlib.Data.List.Induction
/-!
# C45, C46, C54: fmtp attributes
-/

namespace Sdp

section
variable [Env]

/-- `l` is an fmtp attribute text with payload type text `pt` and parameter block `b`: after the
colon and surrounding whitespace, everything up to the first space and everything after it. -/
def IsFmtp (l pt b : Str) : Prop :=
  ∃ n v, l = n ++ ':' :: v ∧ ':' ∉ n ∧ lower n = c%"fmtp" ∧ trim v = pt ++ ' ' :: b ∧ ' ' ∉ pt

/-- The parameters of a block: the pieces between semicolons, without empty ones. -/
def paramsOf (b : Str) : List Str := (splitC ';' b).filter (fun t => !t.isEmpty)

theorem fmtp_parse {l pt b : Str} (h : IsFmtp l pt b) :
    attrFromStr l = (do
      let p ← fmtpBlock FmtpParams.default b
      let x ← parseU8 pt
      return .fmtp ⟨x, p⟩) := by
  obtain ⟨n, v, rfl, hn, hl, hv, hp⟩ := h
  rw [attrFromStr_colon hn, if_neg (by rw [hl]; decide), hl]
  have : attrTypeOfName c%"fmtp" = some .fmtp := rfl
  rw [this]
  simp only [parseAttrValue, parseFmtp]
  rw [hv, splitn_two_append hp]
  simp only [List.length_cons, List.length_nil, ne_eq, Nat.reduceAdd, not_true_eq_false, if_false,
    idx, List.getElem?_cons_zero, ok_bind, sliceFrom, show (1 ≤ 2) from by decide, if_true, List.drop_succ_cons,
    List.drop_zero, fmtpBlocks]
  cases fmtpBlock FmtpParams.default b <;> rfl

/-- Every accepted fmtp has this form. -/
theorem isFmtp_of_ok {l : Str} {f : Fmtp} (h : attrFromStr l = .ok (.fmtp f)) : ∃ pt b, IsFmtp l pt b := by
  have hty : ∀ t v, parseAttrValue t v = .ok (.fmtp f) → t = .fmtp := fun t v h =>
    ((parseAttrValue_range t v _ h).1).symm
  rcases colon_cases l with hl | ⟨n, v, rfl, hn⟩
  · rw [attrFromStr_plain hl] at h
    cases ht : attrTypeOfName (lower l) with
    | none => rw [ht] at h; simp at h
    | some t => rw [ht] at h; obtain rfl := hty _ _ h; simp [parseAttrValue, parseFmtp, splitn, breakC] at h
  · rw [attrFromStr_colon hn] at h
    rcases ite_cases h with ⟨-, h⟩ | ⟨-, h⟩
    · simp at h
    cases ht : attrTypeOfName (lower n) with
    | none => rw [ht] at h; simp at h
    | some t =>
      rw [ht] at h; obtain rfl := hty _ _ h
      have hl := attrTypeOfName_some ht
      simp only [parseAttrValue, parseFmtp] at h
      rcases splitn_two_cases ' ' (trim v) with ⟨hs, -⟩ | ⟨a, b, -, h1, h2⟩
      · rw [hs] at h; simp at h
      · exact ⟨a, b, n, v, rfl, hn, hl, h1, h2⟩

/-! ## Parameter lists -/

theorem paramList_facts {l : List Str} {p : FmtpParams} (h : fmtpParamList FmtpParams.default l = .ok p) :
    (∀ f : FmtpField,
      (∀ t, LastWith (fun t => paramName t = f.text) l t →
        ∃ n, f.Notation (paramValue t) n ∧ f.get p = some n) ∧
      ((∀ t ∈ l, paramName t ≠ f.text) → f.get p = f.absent)) ∧
    p.unknownTokens = l.filter (fun t => decide (paramName t ∉ fmtpNames)) ∧
    p.encodings = [] ∧ p.dtmfTones = [] := by
  induction l using List.reverseRecOn generalizing p with
  | nil =>
    simp only [fmtpParamList, Outcome.ok.injEq] at h; subst h
    refine ⟨fun f => ⟨?_, fun _ => by cases f <;> rfl⟩, rfl, rfl, rfl⟩
    rintro t ⟨pre, post, h, -⟩; simp at h
  | append_singleton l a ih =>
    obtain ⟨q, hq, hs⟩ := fmtpParamList_snoc.1 h
    obtain ⟨ih1, ih2, ih3, ih4⟩ := ih hq
    have last_ne {f : FmtpField} {t : Str} (hn : paramName a ≠ f.text)
        (ht : LastWith (fun t => paramName t = f.text) (l ++ [a]) t) :
        LastWith (fun t => paramName t = f.text) l t := by
      obtain ⟨pre, post, h, ht, hp⟩ := ht
      rcases List.eq_nil_or_concat post with rfl | ⟨post', x, rfl⟩
      · have := List.append_inj' h rfl
        obtain ⟨-, h2⟩ := this; simp at h2; subst h2; exact absurd ht hn
      · have h' : l ++ [a] = (pre ++ t :: post') ++ [x] := by simpa using h
        obtain ⟨h1, h2⟩ := List.append_inj' h' rfl
        exact ⟨pre, post', h1, ht, fun y hy => hp y (by simp [hy])⟩
    have last_eq {f : FmtpField} {t : Str} (hn : paramName a = f.text)
        (ht : LastWith (fun t => paramName t = f.text) (l ++ [a]) t) : t = a := by
      obtain ⟨pre, post, h, ht, hp⟩ := ht
      rcases List.eq_nil_or_concat post with rfl | ⟨post', x, rfl⟩
      · have := List.append_inj' h rfl
        obtain ⟨-, h2⟩ := this; simp at h2; exact h2.symm
      · have h' : l ++ [a] = (pre ++ t :: post') ++ [x] := by simpa using h
        obtain ⟨h1, h2⟩ := List.append_inj' h' rfl
        simp at h2; subst h2
        exact absurd hn (hp a (by simp))
    rw [List.filter_append]
    cases hs with
    | field g n he hn hv hm =>
      refine ⟨fun f => ?_, ?_, ?_, ?_⟩
      · by_cases hfg : g = f
        · subst hfg
          refine ⟨fun t ht => ?_, fun hall => absurd hn (hall a (by simp))⟩
          obtain rfl := last_eq hn ht
          exact ⟨n, hv, FmtpField.get_set hm⟩
        · have hne : paramName a ≠ f.text := fun h' => hfg (FmtpField.text_inj (hn.symm.trans h'))
          rw [FmtpField.get_set_ne _ _ hfg]
          exact ⟨fun t ht => (ih1 f).1 t (last_ne hne ht), fun hall => (ih1 f).2 fun t ht => hall t (by simp [ht])⟩
      · rw [(FmtpField.set_unknown g q n).1, ih2]
        have : paramName a ∈ fmtpNames := by
          by_contra h; exact (not_mem_fmtpNames.1 h).1 g hn
        simp [this]
      · rw [(FmtpField.set_unknown g q n).2.1, ih3]
      · rw [(FmtpField.set_unknown g q n).2.2, ih4]
    | rtxTime r n he hn hr hv hm =>
      refine ⟨fun f => ?_, ?_, ih3, ih4⟩
      · have hne : paramName a ≠ f.text := fun h' => FmtpField.text_ne_rtx f (h'.symm.trans hn)
        have hg : f.get { q with rtx := some { r with rtxTime := some (UInt32.ofNat n) } } = f.get q := by
          cases f <;> simp [FmtpField.get, hr]
        rw [hg]
        exact ⟨fun t ht => (ih1 f).1 t (last_ne hne ht), fun hall => (ih1 f).2 fun t ht => hall t (by simp [ht])⟩
      · have : paramName a ∈ fmtpNames := by
          by_contra h; exact (not_mem_fmtpNames.1 h).2 hn
        simp [ih2, this]
    | unknown he hf hr =>
      refine ⟨fun f => ?_, ?_, ih3, ih4⟩
      · have hg : f.get { q with unknownTokens := q.unknownTokens ++ [a] } = f.get q := by
          cases f <;> rfl
        rw [hg]
        exact ⟨fun t ht => (ih1 f).1 t (last_ne (hf f) ht), fun hall => (ih1 f).2 fun t ht => hall t (by simp [ht])⟩
      · have : paramName a ∉ fmtpNames := not_mem_fmtpNames.2 ⟨hf, hr⟩
        simp [ih2, this]

/-- What the rtx parameters of a list must be. -/
theorem paramList_rtx {l : List Str} {p : FmtpParams} (h : fmtpParamList FmtpParams.default l = .ok p) :
    (∀ pre t post, l = pre ++ t :: post → paramName t = c%"RTX-TIME" → ∃ q ∈ pre, paramName q = c%"APT") ∧
    ((∀ t ∈ l, paramName t ≠ c%"APT") → p.rtx = none) ∧
    (∀ pre t post, l = pre ++ t :: post → paramName t = c%"APT" → (∀ q ∈ post, paramName q ≠ c%"APT") →
      ∃ r, p.rtx = some r ∧ DecText (paramValue t) r.apt.toNat ∧
        ((∀ q ∈ post, paramName q ≠ c%"RTX-TIME") → r.rtxTime = none) ∧
        (∀ u, LastWith (fun u => paramName u = c%"RTX-TIME") post u →
          ∃ x, r.rtxTime = some x ∧ DecText (paramValue u) x.toNat)) := by
  induction l using List.reverseRecOn generalizing p with
  | nil =>
    simp only [fmtpParamList, Outcome.ok.injEq] at h; subst h
    refine ⟨?_, fun _ => rfl, ?_⟩ <;> (intro pre t post h; simp at h)
  | append_singleton l a ih =>
    obtain ⟨q, hq, hs⟩ := fmtpParamList_snoc.1 h
    obtain ⟨ih1, ih2, ih3⟩ := ih hq
    have split {pre post : List Str} {t : Str} (h : l ++ [a] = pre ++ t :: post) :
        (post = [] ∧ pre = l ∧ t = a) ∨ ∃ post', post = post' ++ [a] ∧ l = pre ++ t :: post' := by
      rcases List.eq_nil_or_concat post with rfl | ⟨post', x, rfl⟩
      · obtain ⟨h1, h2⟩ := List.append_inj' h rfl
        simp at h2; exact .inl ⟨rfl, h1.symm, h2.symm⟩
      · have h' : l ++ [a] = (pre ++ t :: post') ++ [x] := by simpa using h
        obtain ⟨h1, h2⟩ := List.append_inj' h' rfl
        simp at h2; subst h2
        exact .inr ⟨post', by simp, h1⟩
    have apt_mem : q.rtx ≠ none → ∃ y ∈ l, paramName y = c%"APT" := by
      intro hne
      by_contra hc
      exact hne (ih2 fun t ht h => hc ⟨t, ht, h⟩)
    -- the new element is neither apt nor rtx-time and leaves rtx alone
    have other {p' : FmtpParams} (hr : p'.rtx = q.rtx) (h1 : paramName a ≠ c%"APT") (h2 : paramName a ≠ c%"RTX-TIME") :
        (∀ pre t post, l ++ [a] = pre ++ t :: post → paramName t = c%"RTX-TIME" → ∃ q ∈ pre, paramName q = c%"APT") ∧
        ((∀ t ∈ l ++ [a], paramName t ≠ c%"APT") → p'.rtx = none) ∧
        (∀ pre t post, l ++ [a] = pre ++ t :: post → paramName t = c%"APT" → (∀ q ∈ post, paramName q ≠ c%"APT") →
          ∃ r, p'.rtx = some r ∧ DecText (paramValue t) r.apt.toNat ∧
            ((∀ q ∈ post, paramName q ≠ c%"RTX-TIME") → r.rtxTime = none) ∧
            (∀ u, LastWith (fun u => paramName u = c%"RTX-TIME") post u →
              ∃ x, r.rtxTime = some x ∧ DecText (paramValue u) x.toNat)) := by
      refine ⟨fun pre t post h ht => ?_, fun h => ?_, fun pre t post h ht hp => ?_⟩
      · rcases split h with ⟨-, -, rfl⟩ | ⟨post', -, h'⟩
        · exact absurd ht h2
        · exact ih1 pre t post' h' ht
      · rw [hr]; exact ih2 fun t ht => h t (by simp [ht])
      · rcases split h with ⟨-, -, rfl⟩ | ⟨post', rfl, h'⟩
        · exact absurd ht h1
        · obtain ⟨r, hr1, hr2, hr3, hr4⟩ := ih3 pre t post' h' ht fun q hq => hp q (by simp [hq])
          refine ⟨r, by rw [hr, hr1], hr2, fun h => hr3 fun q hq => h q (by simp [hq]), fun u hu => hr4 u ?_⟩
          obtain ⟨pre2, post2, e, hu1, hu2⟩ := hu
          rcases List.eq_nil_or_concat post2 with rfl | ⟨post3, x, rfl⟩
          · obtain ⟨-, e2⟩ := List.append_inj' e rfl
            simp at e2; subst e2; exact absurd hu1 h2
          · have e' : post' ++ [a] = (pre2 ++ u :: post3) ++ [x] := by simpa using e
            obtain ⟨e1, -⟩ := List.append_inj' e' rfl
            exact ⟨pre2, post3, e1, hu1, fun y hy => hu2 y (by simp [hy])⟩
    cases hs with
    | field g n he hn hv hm =>
      by_cases hg : g = .apt
      · subst hg
        have hn : paramName a = c%"APT" := hn
        refine ⟨fun pre t post h ht => ?_, fun h => absurd hn (h a (by simp)), fun pre t post h ht hp => ?_⟩
        · rcases split h with ⟨-, -, rfl⟩ | ⟨post', -, h'⟩
          · rw [hn] at ht; simp at ht
          · exact ih1 pre t post' h' ht
        · rcases split h with ⟨rfl, -, rfl⟩ | ⟨post', rfl, -⟩
          · refine ⟨⟨UInt8.ofNat n, none⟩, rfl, ?_, fun _ => rfl, ?_⟩
            · have : DecText (paramValue t) n := hv
              rwa [FmtpField.u8_ofNat (Nat.lt_succ_of_le hm)]
            · rintro u ⟨_, _, h, -⟩; simp at h
          · exact absurd hn (hp a (by simp))
      · refine other (FmtpField.set_rtx q n hg) (fun h => hg (FmtpField.text_inj (g := .apt) (hn.symm.trans h)))
          (fun h => FmtpField.text_ne_rtx g (hn.symm.trans h))
    | unknown he hf hr => exact other rfl (hf .apt) hr
    | rtxTime r n he hn hr hv hm =>
      refine ⟨fun pre t post h ht => ?_, fun h => ?_, fun pre t post h ht hp => ?_⟩
      · rcases split h with ⟨-, rfl, rfl⟩ | ⟨post', -, h'⟩
        · exact apt_mem (by rw [hr]; simp)
        · exact ih1 pre t post' h' ht
      · obtain ⟨y, hy, hy'⟩ := apt_mem (by rw [hr]; simp)
        exact absurd hy' (h y (by simp [hy]))
      · rcases split h with ⟨-, -, rfl⟩ | ⟨post', rfl, h'⟩
        · rw [hn] at ht; simp at ht
        · obtain ⟨r', hr1, hr2, -, -⟩ := ih3 pre t post' h' ht fun q hq => hp q (by simp [hq])
          rw [hr] at hr1; cases hr1
          refine ⟨_, rfl, hr2, fun h => absurd hn (h a (by simp)), fun u hu => ?_⟩
          refine ⟨UInt32.ofNat n, rfl, ?_⟩
          have : u = a := by
            obtain ⟨pre2, post2, e, hu1, hu2⟩ := hu
            rcases List.eq_nil_or_concat post2 with rfl | ⟨post3, x, rfl⟩
            · obtain ⟨-, e2⟩ := List.append_inj' e rfl
              simp at e2; exact e2.symm
            · have e' : post' ++ [a] = (pre2 ++ u :: post3) ++ [x] := by simpa using e
              obtain ⟨-, e2⟩ := List.append_inj' e' rfl
              simp at e2; subst e2
              exact absurd hn (hu2 a (by simp))
          subst this
          rwa [FmtpField.u32_ofNat (by omega)]

/-- When the parameter list is accepted. -/
theorem paramList_accepts {l : List Str} :
    (∃ p, fmtpParamList FmtpParams.default l = .ok p) ↔
      (∀ t ∈ l, '=' ∈ t ∧ (∀ f : FmtpField, paramName t = f.text → ∃ n ≤ f.max, f.Notation (paramValue t) n) ∧
        (paramName t = c%"RTX-TIME" → ∃ n < 2^32, DecText (paramValue t) n)) ∧
      (∀ pre t post, l = pre ++ t :: post → paramName t = c%"RTX-TIME" → ∃ q ∈ pre, paramName q = c%"APT") := by
  constructor
  · rintro ⟨p, h⟩
    refine ⟨?_, (paramList_rtx h).1⟩
    induction l using List.reverseRecOn generalizing p with
    | nil => simp
    | append_singleton l a ih =>
      obtain ⟨q, hq, hs⟩ := fmtpParamList_snoc.1 h
      intro t ht
      simp only [List.mem_append, List.mem_singleton] at ht
      rcases ht with ht | rfl
      · exact ih q hq t ht
      · cases hs with
        | field g n he hn hv hm =>
          refine ⟨he, fun f hf => ?_, fun h => absurd (hn.symm.trans h) (FmtpField.text_ne_rtx g)⟩
          obtain rfl := FmtpField.text_inj (hn.symm.trans hf)
          exact ⟨n, hm, hv⟩
        | rtxTime r n he hn hr hv hm =>
          exact ⟨he, fun f hf => absurd (hf.symm.trans hn) (FmtpField.text_ne_rtx f), fun _ => ⟨n, by omega, hv⟩⟩
        | unknown he hf hr => exact ⟨he, fun f h => absurd h (hf f), fun h => absurd h hr⟩
  · rintro ⟨h1, h2⟩
    induction l using List.reverseRecOn with
    | nil => exact ⟨_, rfl⟩
    | append_singleton l a ih =>
      obtain ⟨q, hq⟩ := ih (fun t ht => h1 t (by simp [ht]))
        (fun pre t post h ht => h2 pre t (post ++ [a]) (by simp [h]) ht)
      obtain ⟨he, hf, hr⟩ := h1 a (by simp)
      by_cases hn : ∃ f : FmtpField, paramName a = f.text
      · obtain ⟨f, hn⟩ := hn
        obtain ⟨n, hm, hv⟩ := hf f hn
        exact ⟨_, fmtpParamList_snoc.2 ⟨q, hq, .field f n he hn hv hm⟩⟩
      · by_cases hx : paramName a = c%"RTX-TIME"
        · obtain ⟨n, hm, hv⟩ := hr hx
          obtain ⟨y, hy, hy'⟩ := h2 l a [] rfl hx
          have : q.rtx ≠ none := by
            intro hnone
            -- the last apt of `l` is stored
            have hex : ∃ pre t post, l = pre ++ t :: post ∧ paramName t = c%"APT" ∧
                ∀ q ∈ post, paramName q ≠ c%"APT" := by
              clear * - hy hy'
              induction l using List.reverseRecOn with
              | nil => simp at hy
              | append_singleton l b ih =>
                by_cases hb : paramName b = c%"APT"
                · exact ⟨l, b, [], rfl, hb, by simp⟩
                · simp only [List.mem_append, List.mem_singleton] at hy
                  rcases hy with hy | rfl
                  · obtain ⟨pre, t, post, rfl, h1, h2⟩ := ih hy
                    refine ⟨pre, t, post ++ [b], by simp, h1, ?_⟩
                    intro q hq
                    simp only [List.mem_append, List.mem_singleton] at hq
                    rcases hq with hq | rfl
                    · exact h2 q hq
                    · exact hb
                  · exact absurd hy' hb
            obtain ⟨pre, t, post, e, h1, h2⟩ := hex
            obtain ⟨r, hr1, -⟩ := (paramList_rtx hq).2.2 pre t post e h1 h2
            rw [hnone] at hr1; cases hr1
          obtain ⟨r, hrr⟩ := Option.ne_none_iff_exists'.1 this
          exact ⟨_, fmtpParamList_snoc.2 ⟨q, hq, .rtxTime r n he hx hrr hv (by omega)⟩⟩
        · exact ⟨_, fmtpParamList_snoc.2 ⟨q, hq, .unknown he (fun f h => hn ⟨f, h⟩) hx⟩⟩

theorem fmtp_list_ok {l pt b : Str} (h : IsFmtp l pt b) (he : '=' ∈ b) {a : Attribute} :
    attrFromStr l = .ok a ↔
      ∃ p x, fmtpParamList FmtpParams.default (paramsOf b) = .ok p ∧ parseU8 pt = .ok x ∧ a = .fmtp ⟨x, p⟩ := by
  rw [fmtp_parse h]
  unfold fmtpBlock
  rw [if_pos he]
  simp only [bind_eq_ok, pure_eq_ok, Outcome.ok.injEq, paramsOf]
  constructor
  · rintro ⟨p, hp, x, hx, rfl⟩; exact ⟨p, x, hp, hx, rfl⟩
  · rintro ⟨p, x, hp, hx, rfl⟩; exact ⟨p, hp, x, hx, rfl⟩

/-- **C54.** Which parameter lists are accepted: the payload type is a number below 256, every piece
has an equals sign, every known parameter has a number in its range as its value, and every rtx-time
comes after an apt. -/
theorem C54_accepts {l pt b : Str} (h : IsFmtp l pt b) (he : '=' ∈ b) :
    (∃ a, attrFromStr l = .ok a) ↔
      (∃ n < 256, DecText pt n) ∧
      (∀ t ∈ paramsOf b, '=' ∈ t ∧
        (∀ f : FmtpField, paramName t = f.text → ∃ n ≤ f.max, f.Notation (paramValue t) n) ∧
        (paramName t = c%"RTX-TIME" → ∃ n < 2^32, DecText (paramValue t) n)) ∧
      (∀ pre t post, paramsOf b = pre ++ t :: post → paramName t = c%"RTX-TIME" →
        ∃ q ∈ pre, paramName q = c%"APT") := by
  rw [← paramList_accepts]
  simp only [fmtp_list_ok h he]
  constructor
  · rintro ⟨a, p, x, h1, h2, -⟩
    exact ⟨⟨x.toNat, x.toNat_lt, parseU8_ok.1 h2⟩, p, h1⟩
  · rintro ⟨⟨n, hn, hd⟩, p, hp⟩
    exact ⟨_, p, UInt8.ofNat n, hp, parseU8_ok.2 (by rwa [FmtpField.u8_ofNat hn]), rfl⟩

/-- **C54.** What an accepted parameter list means: the last occurrence of each parameter wins, a
parameter that does not occur has its default, pieces with an unknown name are kept in order. -/
theorem C54_values {l pt b : Str} {f : Fmtp} (h : IsFmtp l pt b) (he : '=' ∈ b)
    (hf : attrFromStr l = .ok (.fmtp f)) :
    DecText pt f.payloadType.toNat ∧
    (∀ k : FmtpField,
      (∀ t, LastWith (fun t => paramName t = k.text) (paramsOf b) t →
        ∃ n, k.Notation (paramValue t) n ∧ k.get f.parameters = some n) ∧
      ((∀ t ∈ paramsOf b, paramName t ≠ k.text) → k.get f.parameters = k.absent)) ∧
    f.parameters.unknownTokens = (paramsOf b).filter (fun t => decide (paramName t ∉ fmtpNames)) ∧
    f.parameters.encodings = [] ∧ f.parameters.dtmfTones = [] := by
  obtain ⟨p, x, h1, h2, h3⟩ := (fmtp_list_ok h he).1 hf
  cases h3
  exact ⟨parseU8_ok.1 h2, paramList_facts h1⟩

/-- **C46.** rtx-time needs an apt before it; the stored apt is the last one, the stored rtx-time
the last one after that apt. -/
theorem C46_rtx {l pt b : Str} {f : Fmtp} (h : IsFmtp l pt b) (he : '=' ∈ b)
    (hf : attrFromStr l = .ok (.fmtp f)) :
    (∀ pre t post, paramsOf b = pre ++ t :: post → paramName t = c%"RTX-TIME" →
      ∃ q ∈ pre, paramName q = c%"APT") ∧
    ((∀ t ∈ paramsOf b, paramName t ≠ c%"APT") → f.parameters.rtx = none) ∧
    (∀ pre t post, paramsOf b = pre ++ t :: post → paramName t = c%"APT" →
      (∀ q ∈ post, paramName q ≠ c%"APT") →
      ∃ r, f.parameters.rtx = some r ∧ DecText (paramValue t) r.apt.toNat ∧
        ((∀ q ∈ post, paramName q ≠ c%"RTX-TIME") → r.rtxTime = none) ∧
        (∀ u, LastWith (fun u => paramName u = c%"RTX-TIME") post u →
          ∃ x, r.rtxTime = some x ∧ DecText (paramValue u) x.toNat)) := by
  obtain ⟨p, x, h1, h2, h3⟩ := (fmtp_list_ok h he).1 hf
  cases h3
  exact paramList_rtx h1

/-- **C46.** A rtx-time without an apt before it is an error. -/
theorem C46_rtx_time_alone {l pt b : Str} (h : IsFmtp l pt b) {pre post : List Str} {t : Str}
    (hp : paramsOf b = pre ++ t :: post) (ht : paramName t = c%"RTX-TIME") (he : '=' ∈ t)
    (hn : ∀ q ∈ pre, paramName q ≠ c%"APT") : ¬ ∃ a, attrFromStr l = .ok a := by
  have heb : '=' ∈ b := by
    have : t ∈ paramsOf b := by rw [hp]; simp
    simp only [paramsOf, List.mem_filter] at this
    exact splitC_mem_sub this.1 _ he
  rw [C54_accepts h heb]
  rintro ⟨-, -, h3⟩
  obtain ⟨q, hq, hq'⟩ := h3 pre t post hp ht
  exact hn q hq hq'

/-! ## Red lists -/

theorem fmtpRed_ok {l : List Str} {p q : FmtpParams} :
    fmtpRed p l = .ok q ↔ ∃ ns : List UInt8, List.Forall₂ (fun t n => DecText t n.toNat ∧ n.toNat ≤ 128) l ns ∧
      q = { p with encodings := p.encodings ++ ns } := by
  induction l generalizing p with
  | nil =>
    simp only [fmtpRed, Outcome.ok.injEq, List.forall₂_nil_left_iff, exists_eq_left, List.append_nil]
    exact eq_comm
  | cons t ts ih =>
    simp only [fmtpRed, bind_eq_ok]
    constructor
    · rintro ⟨x, hx, h⟩
      rcases ite_cases h with ⟨hc, h⟩ | ⟨-, h⟩
      · obtain ⟨ns, h1, rfl⟩ := ih.1 h
        exact ⟨x :: ns, .cons ⟨parseU8_ok.1 hx, UInt8.le_iff_toNat_le.1 hc⟩ h1, by simp⟩
      · simp at h
    · rintro ⟨ns, h1, rfl⟩
      cases h1 with
      | cons h1 h2 =>
        rename_i x xs
        refine ⟨x, parseU8_ok.2 h1.1, ?_⟩
        rw [if_pos (UInt8.le_iff_toNat_le.2 h1.2)]
        exact ih.2 ⟨xs, h2, by simp⟩

/-- **C54.** A block with a slash and no equals sign is a list of payload types up to 128. -/
theorem C54_red {l pt b : Str} (h : IsFmtp l pt b) (he : '=' ∉ b) (hs : '/' ∈ b) (a : Attribute) :
    attrFromStr l = .ok a ↔ ∃ (x : UInt8) (ns : List UInt8), DecText pt x.toNat ∧
      List.Forall₂ (fun t n => DecText t n.toNat ∧ n.toNat ≤ 128) (splitC '/' b) ns ∧
      a = .fmtp ⟨x, { FmtpParams.default with encodings := ns }⟩ := by
  rw [fmtp_parse h]
  unfold fmtpBlock
  rw [if_neg he, if_pos hs]
  simp only [bind_eq_ok, pure_eq_ok, Outcome.ok.injEq, fmtpRed_ok, parseU8_ok]
  constructor
  · rintro ⟨p, ⟨ns, h1, rfl⟩, x, hx, rfl⟩; exact ⟨x, ns, hx, h1, rfl⟩
  · rintro ⟨x, ns, hx, h1, rfl⟩; exact ⟨_, ⟨ns, h1, rfl⟩, x, hx, rfl⟩

/-! ## Telephone events -/

omit [Env] in
theorem dtmfDigit_some {s : Str} {n : Nat} : dtmfDigit s = some n ↔ DecText s n ∧ n ≤ 100 := by
  unfold dtmfDigit
  cases h : parseRadix 10 (2^8) s with
  | ok k =>
    obtain ⟨h1, h2⟩ := (parseRadix_ten (by decide)).1 h
    by_cases hk : k ≤ 100
    · simp only [if_pos hk, Option.some.injEq]
      constructor
      · rintro rfl; exact ⟨h1, hk⟩
      · rintro ⟨h3, -⟩; exact h1.unique h3
    · simp only [if_neg hk]
      constructor
      · intro h; cases h
      · rintro ⟨h3, h4⟩; obtain rfl := h1.unique h3; exact absurd h4 hk
  | error e =>
    constructor
    · intro h; cases h
    · rintro ⟨h3, h4⟩
      have := (parseRadix_ten (lim := 2^8) (by decide)).2 ⟨h3, by omega⟩
      rw [h] at this; cases this

omit [Env] in
theorem DecText.chars {s : Str} {n : Nat} (h : DecText s n) : ∀ c ∈ s, c = '+' ∨ c.isDigit = true := by
  obtain ⟨ds, h1, -, h2, -⟩ := h
  intro c hc
  rcases h1 with rfl | rfl
  · exact .inr (h2 c hc)
  · simp only [List.mem_cons] at hc
    rcases hc with rfl | hc
    · exact .inl rfl
    · exact .inr (h2 c hc)

omit [Env] in
theorem DecText.not_mem {s : Str} {n : Nat} (h : DecText s n) {c : Char} (h1 : c ≠ '+') (h2 : c.isDigit = false) :
    c ∉ s := by
  intro hc
  rcases h.chars c hc with h' | h'
  · exact h1 h'
  · rw [h2] at h'; cases h'

omit [Env] in
theorem dtmfToneOk_iff {t : Str} : dtmfToneOk t = true ↔ ToneItem t := by
  unfold dtmfToneOk ToneItem
  rcases splitn_two_cases '-' t with ⟨hs, hm⟩ | ⟨a, b, hs, rfl, ha⟩
  · rw [hs]
    simp only [Option.isSome_iff_exists, dtmfDigit_some]
    constructor
    · exact .inl
    · rintro (h | ⟨a, b, _, _, rfl, -⟩)
      · exact h
      · exact absurd (by simp) hm
  · rw [hs]
    constructor
    · intro h
      right
      cases h1 : dtmfDigit a with
      | none => simp [h1] at h
      | some m =>
        cases h2 : dtmfDigit b with
        | none => simp [h1, h2] at h
        | some n =>
          simp [h1, h2] at h
          obtain ⟨k1, -⟩ := dtmfDigit_some.1 h1
          obtain ⟨k2, k3⟩ := dtmfDigit_some.1 h2
          exact ⟨a, b, m, n, rfl, k1, k2, h, k3⟩
    · rintro (⟨n, h, -⟩ | ⟨a', b', m, n, e, h1, h2, h3, h4⟩)
      · exact absurd (by simp) (h.not_mem (c := '-') (by decide) (by decide))
      · have ha' : '-' ∉ a' := h1.not_mem (by decide) (by decide)
        have := splitn_two_append (b := b) ha
        rw [e, splitn_two_append ha'] at this
        simp at this
        obtain ⟨rfl, rfl⟩ := this
        simp [dtmfDigit_some.2 ⟨h1, by omega⟩, dtmfDigit_some.2 ⟨h2, h4⟩, h3]

omit [Env] in
theorem dtmfAllOk_iff {l : List Str} : dtmfAllOk l = true ↔ ∀ t ∈ l, ToneItem t := by
  induction l with
  | nil => simp [dtmfAllOk]
  | cons t ts ih =>
    by_cases h : dtmfToneOk t = true
    · simp [dtmfAllOk, h, ih, dtmfToneOk_iff.1 h]
    · have h' : ¬ ToneItem t := fun h' => h (dtmfToneOk_iff.2 h')
      simp [dtmfAllOk, h, h']

omit [Env] in
theorem ToneItem.no_comma {t : Str} (h : ToneItem t) : ',' ∉ t := by
  rcases h with ⟨n, h, -⟩ | ⟨a, b, m, n, rfl, h1, h2, -⟩
  · exact h.not_mem (by decide) (by decide)
  · have k1 := h1.not_mem (c := ',') (by decide) (by decide)
    have k2 := h2.not_mem (c := ',') (by decide) (by decide)
    simp [k1, k2]

omit [Env] in
theorem toneList_iff {b : Str} : dtmfAllOk (splitC ',' b) = true ↔ ToneList b := by
  rw [dtmfAllOk_iff]
  constructor
  · intro h; exact ⟨_, splitC_ne_nil _ _, joinS_splitC.symm, h⟩
  · rintro ⟨items, hne, rfl, h⟩
    rwa [splitC_joinS hne fun t ht => (h t ht).no_comma]

/-- **C45.** A telephone-event list is stored as it is. -/
theorem C45_tones_kept {l pt b : Str} (h : IsFmtp l pt b) (he : '=' ∉ b) (hs : '/' ∉ b)
    (ht : ToneList b) (a : Attribute) :
    attrFromStr l = .ok a ↔ ∃ x : UInt8, DecText pt x.toNat ∧
      a = .fmtp ⟨x, { FmtpParams.default with dtmfTones := b }⟩ := by
  rw [fmtp_parse h]
  unfold fmtpBlock
  rw [if_neg he, if_neg hs, if_pos (toneList_iff.2 ht)]
  simp only [ok_bind, bind_eq_ok, pure_eq_ok, Outcome.ok.injEq, parseU8_ok]
  exact exists_congr fun x => and_congr_right fun _ => eq_comm

/-- **C45.** Anything else without '=' and '/' is stored as `0-15`; it is not an error. -/
theorem C45_tones_default {l pt b : Str} (h : IsFmtp l pt b) (he : '=' ∉ b) (hs : '/' ∉ b)
    (ht : ¬ ToneList b) (a : Attribute) :
    attrFromStr l = .ok a ↔ ∃ x : UInt8, DecText pt x.toNat ∧
      a = .fmtp ⟨x, { FmtpParams.default with dtmfTones := c%"0-15" }⟩ := by
  rw [fmtp_parse h]
  unfold fmtpBlock
  rw [if_neg he, if_neg hs, if_neg (fun h => ht (toneList_iff.1 h))]
  simp only [ok_bind, bind_eq_ok, pure_eq_ok, Outcome.ok.injEq, parseU8_ok]
  exact exists_congr fun x => and_congr_right fun _ => eq_comm

/-- **C45, C46, C54.** The three cases are all there is: every accepted fmtp has a payload type and
a block. -/
theorem C54_form {l : Str} {f : Fmtp} (h : attrFromStr l = .ok (.fmtp f)) : ∃ pt b, IsFmtp l pt b :=
  isFmtp_of_ok h

/-- **C54.** An fmtp whose value has no space is called unsupported. -/
theorem C54_no_block {n v : Str} (hn : ':' ∉ n) (hl : lower n = c%"fmtp") (hs : ' ' ∉ trim v) :
    ∃ m, attrFromStr (n ++ ':' :: v) = .err (.unsupported m) := by
  rw [attrFromStr_colon hn, hl, if_neg (by decide)]
  have : attrTypeOfName c%"fmtp" = some .fmtp := by decide
  rw [this]
  simp only [parseAttrValue, parseFmtp]
  rcases splitn_two_cases ' ' (trim v) with ⟨hs', -⟩ | ⟨a, b, -, h1, -⟩
  · rw [hs']; exact ⟨_, rfl⟩
  · rw [h1] at hs; simp at hs

end

/-! ## Concrete cases -/

section
attribute [local instance] sampleEnv

example : ':' ∉ (c%"Fmtp" : Str) ∧ lower c%"Fmtp" = c%"fmtp" ∧ ' ' ∉ trim c%" 96;x=1 " := by decide +kernel

example : IsFmtp c%"FMTP: 97 apt=3;Rtx-Time=5;apt=7;rtx-time=9;x=y " c%"97" c%"apt=3;Rtx-Time=5;apt=7;rtx-time=9;x=y" :=
  ⟨c%"FMTP", c%" 97 apt=3;Rtx-Time=5;apt=7;rtx-time=9;x=y ", rfl, by decide, by decide +kernel, by decide +kernel, by decide⟩
example : (match attrFromStr c%"fmtp: 97 apt=3;Rtx-Time=5;apt=7;rtx-time=9;x=y " with
    | .ok (.fmtp f) => some (f.parameters.rtx, f.parameters.unknownTokens)
    | _ => none) = some (some ⟨7, some 9⟩, [c%"x=y"]) := by decide +kernel
example : paramsOf c%"rtx-time=5;;apt=3" = [] ++ c%"rtx-time=5" :: [c%"apt=3"] ∧
    paramName c%"rtx-time=5" = c%"RTX-TIME" := by decide +kernel
example : IsFmtp c%"fmtp:101 0-15,66" c%"101" c%"0-15,66" :=
  ⟨c%"fmtp", c%"101 0-15,66", rfl, by decide, by decide +kernel, by decide +kernel, by decide⟩
example : ToneList c%"0-15,66" :=
  ⟨[c%"0-15", c%"66"], by decide, rfl, by
    intro t ht
    simp at ht
    rcases ht with rfl | rfl
    · exact .inr ⟨c%"0", c%"15", 0, 15, rfl, ⟨c%"0", .inl rfl, by decide, by decide, by decide⟩,
        ⟨c%"15", .inl rfl, by decide, by decide, by decide⟩, by decide, by decide⟩
    · exact .inl ⟨66, ⟨c%"66", .inl rfl, by decide, by decide, by decide⟩, by decide⟩⟩
example : ¬ ToneList c%"15-0" := by rw [← toneList_iff]; decide
example : ¬ ToneList c%"foo" := by rw [← toneList_iff]; decide
example : (attrFromStr c%"fmtp:97 109/101").isOk = true := by decide +kernel
end

end Sdp
