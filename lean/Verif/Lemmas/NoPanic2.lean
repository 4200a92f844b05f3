import Verif.Lemmas.NoPanic
/-!
# No panic: lines, sections, sessions
-/

namespace Sdp

theorem length_le_byteLen (s : Str) : s.length ≤ byteLen s := by
  induction s with
  | nil => simp [byteLen]
  | cons c cs ih =>
    have := Char.utf8Size_pos c
    simp only [byteLen, List.map_cons, List.sum_cons, List.length_cons] at ih ⊢
    omega

theorem trimStart_length (s : Str) : (trimStart s).length ≤ s.length :=
  (List.dropWhile_sublist isWs).length_le

theorem trimEnd_length (s : Str) : (trimEnd s).length ≤ s.length := by
  unfold trimEnd
  rw [List.length_reverse]
  exact Nat.le_trans (List.dropWhile_sublist isWs).length_le (by simp)

theorem trim_length (s : Str) : (trim s).length ≤ s.length :=
  Nat.le_trans (trimEnd_length _) (trimStart_length _)

theorem np_attrFromStr [Env] {l : Str} (h : l.length < 2^31) : NP (attrFromStr l) := by
  unfold attrFromStr
  rcases splitn_two_cases ':' l with ⟨h1, _⟩ | ⟨a, b, h1, h2, _⟩
  · rw [h1]
    simp only [idx, List.getElem?_cons_zero, ok_bind, List.getElem?_cons_succ, List.getElem?_nil]
    np
    exact np_parseAttrValue _ (by simp)
  · rw [h1]
    simp only [idx, List.getElem?_cons_zero, ok_bind, List.getElem?_cons_succ]
    refine NP.ite (fun _ => NP.egeneric _) fun _ => ?_
    split
    · rename_i t ht
      refine np_parseAttrValue _ ?_
      have hb := trim_length b
      have ha : a ≠ [] := by
        rintro rfl
        simp [lower, isAscii, attrTypeOfName] at ht
      have : 1 ≤ a.length := by cases a <;> simp_all
      have hl : l.length = a.length + (b.length + 1) := by rw [h2]; simp
      omega
    · np

theorem np_parseAttribute [Env] {l : Str} (h : l.length < 2^31) : NP (parseAttribute l) := by
  unfold parseAttribute
  have := trim_length l
  exact NP.bind (np_attrFromStr (by omega)) fun _ _ => NP.pure _

theorem np_parseVersion (v : Str) : NP (parseVersion v) := by unfold parseVersion; np

theorem np_parseOrigin [Env] (v : Str) : NP (parseOrigin v) := by
  unfold parseOrigin
  have h1 := np_parseNetworkType; have h2 := np_parseAddressType; have h3 := np_typedTryFrom
  np <;> first | apply h1 | apply h2 | apply h3

theorem np_parseConnAddr (t : Str) : NP (parseConnAddr t) := by
  unfold parseConnAddr
  refine NP.ite (fun h => ?_) fun _ => NP.ok _
  have := splitC_two_le h
  simp only []
  np

theorem np_parseConnection [Env] (v : Str) : NP (parseConnection v) := by
  unfold parseConnection
  have h1 := np_parseNetworkType; have h2 := np_parseAddressType; have h3 := np_typedTryFrom
  have h4 := np_parseConnAddr
  simp only []
  np <;> first | apply h1 | apply h2 | apply h3 | apply h4

theorem np_parseBandwidth [Env] (v : Str) : NP (parseBandwidth v) := by
  unfold parseBandwidth; simp only []; np

theorem np_parseTiming (v : Str) : NP (parseTiming v) := by unfold parseTiming; simp only []; np

theorem np_parseMediaToken [Env] (v : Str) : NP (parseMediaToken v) := by
  unfold parseMediaToken; simp only []; np

theorem np_parseProtocolToken [Env] (v : Str) : NP (parseProtocolToken v) := by
  unfold parseProtocolToken; simp only []; np

theorem np_parseFormats (m : MediaValue) (l : List Str) : NP (parseFormats m l) := by
  unfold parseFormats
  have : ∀ l, NP (collect parseFmtNum l) := fun l => NP.collect fun x _ => by unfold parseFmtNum; np
  np <;> apply this

theorem np_parsePortCount (l : List Str) : NP (parsePortCount l) := by unfold parsePortCount; np

theorem np_parseMedia [Env] (v : Str) : NP (parseMedia v) := by
  unfold parseMedia
  have h1 := np_parseMediaToken; have h2 := np_parseProtocolToken; have h3 := np_parseFormats
  have h4 := np_parsePortCount
  simp only []
  np <;> first | apply h1 | apply h2 | apply h3 | apply h4

theorem np_parseLineValue [Env] (ty : Str) {v : Str} (raw : Str) (h : v.length < 2^31) :
    NP (parseLineValue ty v raw) := by
  unfold parseLineValue
  have h0 := np_parseAttribute h
  have h1 := np_parseBandwidth v
  have h2 := np_parseConnection v
  have h3 := np_parseMedia v
  have h4 := np_parseOrigin v
  have h5 := np_parseTiming v
  have h6 := np_parseVersion v
  have h7 : NP (parseSessionName raw) := NP.ok _
  np

theorem np_parseSdpLine [Env] {l : Str} (n : Nat) (h : l.length < 2^31) : NP (parseSdpLine l n) := by
  unfold parseSdpLine; simp only []
  refine NP.ite (fun _ => NP.err _) fun hm => ?_
  simp at hm
  obtain ⟨a, b, h1, h2, _⟩ := splitn_two_of_mem hm
  rw [h1]; simp only []
  refine NP.ite (fun _ => NP.err _) fun _ => NP.ite (fun _ => NP.err _) fun _ =>
    NP.ite (fun _ => NP.err _) fun _ => ?_
  have hb := trim_length b
  have hl : l.length = a.length + (b.length + 1) := by rw [h2]; simp
  have := np_parseLineValue (lower (trim a)) (v := trim b) b (by omega)
  split
  · exact NP.ok _
  · exact NP.err _
  · rename_i hp; exact absurd hp this

theorem stripCR_length (s : Str) : (stripCR s).length ≤ s.length := by
  unfold stripCR; split <;> simp

theorem linesGo_mem {l : List Str} {t : Str} (h : t ∈ linesGo l) : ∃ u ∈ l, t.length ≤ u.length := by
  induction l with
  | nil => simp [linesGo] at h
  | cons l ls ih =>
    cases ls with
    | nil =>
      simp only [linesGo] at h
      split at h
      · simp at h
      · simp at h; exact ⟨l, by simp, by simp [h]⟩
    | cons m ls =>
      simp only [linesGo, List.mem_cons] at h
      rcases h with rfl | h
      · exact ⟨l, by simp, stripCR_length l⟩
      · obtain ⟨u, hu, hle⟩ := ih h
        exact ⟨u, List.mem_cons_of_mem _ hu, hle⟩

theorem le_sum_of_mem {l : List Nat} {n : Nat} (h : n ∈ l) : n ≤ l.sum := by
  induction l with
  | nil => simp at h
  | cons x xs ih =>
    simp only [List.mem_cons] at h
    rw [List.sum_cons]
    rcases h with rfl | h
    · omega
    · have := ih h; omega

theorem splitP_mem_length {p : Char → Bool} {s t : Str} (h : t ∈ splitP p s) : t.length ≤ s.length := by
  have h1 := splitP_sum p s
  have h2 : t.length + 1 ≤ ((splitP p s).map (fun t => t.length + 1)).sum :=
    le_sum_of_mem (List.mem_map.2 ⟨t, h, rfl⟩)
  omega

theorem lines_mem_length {s t : Str} (h : t ∈ lines s) : t.length ≤ s.length := by
  obtain ⟨u, hu, hle⟩ := linesGo_mem h
  exact Nat.le_trans hle (splitP_mem_length hu)

theorem np_scanLines [Env] {ls : List Str} (h : ∀ l ∈ ls, l.length < 2^31) (n : Nat) (sc : Scan) :
    NP (scanLines n ls sc) := by
  induction ls generalizing n sc with
  | nil => simp only [scanLines]; np
  | cons l ls ih =>
    have h' : ∀ x ∈ ls, x.length < 2^31 := fun x hx => h x (by simp [hx])
    simp only [scanLines]
    refine NP.ite (fun _ => ih h' _ _) fun _ => ?_
    have := np_parseSdpLine n (h l (by simp))
    split <;> first | exact ih h' _ _ | (rename_i hp; exact absurd hp this)

theorem np_mediaAttrLine [Env] (m : Media) (a : Attribute) : NP (mediaAttrLine m a).2 := by
  have : ∀ a, NP (m.addAttribute a).2 := by
    intro a; unfold Media.addAttribute; split
    · exact NP.egeneric _
    · exact NP.ok _
  unfold mediaAttrLine; split
  · exact NP.ok _
  · apply this
  · apply this

theorem np_mediaLoop [Env] (done : List Media) (cur : Media) (l : List SdpLine) :
    NP (mediaLoop done cur l) := by
  induction l generalizing done cur with
  | nil => simp only [mediaLoop]; np
  | cons x xs ih =>
    simp only [mediaLoop]
    split <;> try (first | exact ih _ _ | exact NP.err _)
    · exact NP.ite (fun _ => NP.err _) fun _ => ih _ _
    · rename_i a _
      have := np_mediaAttrLine cur a
      split
      · exact ih _ _
      · exact NP.err _
      · rename_i hp; rw [hp] at this; exact absurd rfl this

theorem np_parseVector [Env] (s : Session) (l : List SdpLine) : NP (s.parseVector l).2 := by
  induction l generalizing s with
  | nil => simp only [Session.parseVector]; np
  | cons x xs ih =>
    simp only [Session.parseVector]
    split <;> try (first | exact ih _ | exact NP.err _)
    rename_i a _
    unfold Session.addAttribute
    by_cases h : a.allowedAtSessionLevel = true
    · simp [h]; exact ih _
    · simp [h, egeneric]; exact NP.err _

theorem np_checkRidFormats (f : FormatList) (l : List UInt16) : NP (checkRidFormats f l) := by
  induction l with
  | nil => simp only [checkRidFormats]; np
  | cons x xs ih => simp only [checkRidFormats]; np

theorem np_checkDefinedRids (f : List Str) (l : List SimulcastId) : NP (checkDefinedRids f l) := by
  induction l with
  | nil => simp only [checkDefinedRids]; np
  | cons x xs ih => simp only [checkDefinedRids]; np

theorem np_checkMedia (m : Media) : NP (checkMedia m) := by
  unfold checkMedia; simp only []
  have h1 := np_checkRidFormats; have h2 := np_checkDefinedRids
  np <;> first | apply h1 | apply h2

theorem np_checkMediaList (l : List Media) : NP (checkMediaList l) := by
  induction l with
  | nil => simp only [checkMediaList]; np
  | cons x xs ih => simp only [checkMediaList]; exact NP.bind (np_checkMedia x) fun _ _ => ih

theorem np_sanityCheck (s : Session) : NP (sanityCheck s) := by
  unfold sanityCheck
  have := np_checkMediaList s.media
  np

theorem findIdx?_drop {α : Type} {p : α → Bool} {l : List α} {i : Nat} (h : l.findIdx? p = some i) :
    ∃ x xs, l.drop i = x :: xs ∧ p x = true ∧ l = l.take i ++ x :: xs ∧ ∀ y ∈ l.take i, p y = false := by
  rw [List.findIdx?_eq_some_iff_getElem] at h
  obtain ⟨hlt, hp, hn⟩ := h
  refine ⟨l[i], l.drop (i + 1), List.drop_eq_getElem_cons hlt, hp, ?_, ?_⟩
  · rw [← List.drop_eq_getElem_cons hlt, List.take_append_drop]
  · intro y hy
    rw [List.mem_take_iff_getElem] at hy
    obtain ⟨j, hj, rfl⟩ := hy
    have := hn j (by omega)
    simpa using this

theorem np_finishSession [Env] (s : Session) (l : List SdpLine) : NP (finishSession s l) := by
  unfold finishSession
  refine NP.bind ?_ fun s' _ => NP.bind (np_sanityCheck s') fun _ _ => NP.pure _
  split
  · rename_i p hp
    obtain ⟨x, xs, h1, h2, _⟩ := findIdx?_drop hp
    have := np_parseVector s (l.take p)
    split
    · refine NP.bind ?_ fun _ _ => NP.pure _
      rw [h1]
      unfold parseMediaVector
      simp only []
      split
      · exact np_mediaLoop _ _ _
      · exact NP.err _
    · exact NP.err _
    · rename_i hq; rw [hq] at this; exact absurd rfl this
  · have := np_parseVector s l
    split
    · exact NP.ok _
    · exact NP.err _
    · rename_i hq; rw [hq] at this; exact absurd rfl this

theorem np_parseSdpVector [Env] (l : List SdpLine) : NP (parseSdpVector l) := by
  unfold parseSdpVector
  match l with
  | [] => simp; np
  | [_] => simp; np
  | [_, _] => simp; np
  | [_, _, _] => simp; np
  | a :: b :: c :: d :: r =>
    rw [if_neg (by simp)]
    simp only [removeFirst, ok_bind]
    split
    · split
      · split
        · exact np_finishSession _ _
        · exact NP.err _
      · exact NP.err _
    · exact NP.err _

theorem np_finishScan [Env] (sc : Scan) (f : Bool) : NP (finishScan sc f) := by
  unfold finishScan
  split
  · exact NP.err _
  · split
    · exact NP.err _
    · exact NP.bind (np_parseSdpVector _) fun _ _ => NP.pure _

theorem np_parseSdp [Env] {s : Str} (h : byteLen s < 2^31) (f : Bool) : NP (parseSdp s f) := by
  unfold parseSdp
  have hl := length_le_byteLen s
  refine NP.ite (fun _ => NP.err _) fun _ => NP.ite (fun _ => NP.err _) fun _ =>
    NP.bind (np_scanLines (fun l hm => ?_) _ _) fun _ _ => np_finishScan _ _
  have := lines_mem_length hm
  omega

end Sdp
