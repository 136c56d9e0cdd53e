import Verif.Kafka.RecordLemmas
import Verif.Kafka.Gzip
/-
Model of components/kafka-protocol-go/pkg/protocol/types/fields/{recordheader,batchrecord}.go `Read` over readers that may return fewer bytes than
asked for: serialization/reader.go passes `Read` and `ReadByte` on to the decoder of the codec, and compression/gzip/gzip.go returns what one call of the
decompressor gives when 16 KiB or more are asked for. Verif/Kafka/Record.lean is the special case of a reader that has everything at hand (uncompressed
records, snappy); `record_plain` below shows that the two models agree there.
-/
namespace Verif.Kafka
open Verif

/-- serialization/reader.go:43-75: the two operations record readers use; `read n` is `Read` into `n` > 0 bytes. Whether an error comes with bytes does not
matter: the callers drop them. -/
structure Source (σ : Type) where
  byte : σ → Res (UInt8 × σ)
  read : Nat → σ → Res (Bytes × σ)

/-- chunkreader.go:94-122, bytes.Reader -/
def Source.plain : Source Bytes where
  byte := fun bs => match bs with
    | [] => .error .eof
    | b :: r => .ok (b, r)
  read := fun n bs => if bs = [] then .error .eof else .ok (bs.take n, bs.drop n)

/-- gzip.go:33-106 -/
def Source.gzip : Source Gzip.St where
  byte := fun st => match Gzip.readByte st with
    | (b :: _, none, st') => .ok (b, st')
    | (_, some .eof, _) => .error .eof
    | _ => .error .other
  read := fun n st => match Gzip.gread st n with
    | (out, none, st') => .ok (out, st')
    | (_, some .eof, _) => .error .eof
    | (_, some .fail, _) => .error .other

/-- a reader over a source; (as `Dec`, over an `io.Reader` with state) -/
abbrev Rd (σ α : Type) := σ → Res (α × σ)

/-- a read that consumes nothing (models no code of its own) -/
def Rd.ret {σ α : Type} (a : α) : Rd σ α := fun s => .ok (a, s)

/-- sequencing of two reads (`if err != nil { return err }` between them) -/
def Rd.andThen {σ α β : Type} (d : Rd σ α) (f : α → Rd σ β) : Rd σ β := fun s =>
  match d s with
  | .error e => .error e
  | .ok (a, s') => f a s'

section
variable {σ : Type} (q : Source σ)

/-- Go `binary.ReadUvarint` over `ReadByte` -/
def uvarintAuxVia : (fuel : Nat) → (s : Nat) → (x : Nat) → Rd σ Nat
  | 0, _, _ => fun _ => .error .overflow
  | fuel + 1, s, x => fun st =>
    match q.byte st with
    | .error e => .error (if s ≠ 0 ∧ e = .eof then .unexpectedEof else e)
    | .ok (b, st') =>
      if b < 0x80 then
        if fuel = 0 ∧ b > 1 then .error .overflow
        else .ok (x ||| (b.toNat <<< s), st')
      else uvarintAuxVia fuel (s + 7) (x ||| ((b &&& 0x7f).toNat <<< s)) st'

/-- varint.go:201-213 `ReadUint32_`, 237-253 `ReadInt32_` -/
def varint32Via : Rd σ Int := fun st =>
  match uvarintAuxVia q 10 0 0 st with
  | .error e => .error e
  | .ok (u, rest) =>
    if u ≥ 2^32 then .error .other
    else
      let x := (BitVec.ofNat 64 u) >>> 1
      let val := if (BitVec.ofNat 64 u) &&& 1 ≠ 0 then ~~~x else x
      .ok ((val.truncate 32).toInt, rest)

/-- varint.go:293-300 `ReadInt64_` -/
def varint64Via : Rd σ Int := fun st =>
  match uvarintAuxVia q 10 0 0 st with
  | .error e => .error e
  | .ok (u, rest) => .ok (unzigzag64 u, rest)

/-- types/int.go:274-291 `ReadInt8_` -/
def int8Via : Rd σ Int := fun st =>
  match q.read 1 st with
  | .error e => .error e
  | .ok (b, st') => if b.length ≠ 1 then .error .other else .ok (wrapS 1 (beNat b 0), st')

/-- one `Read` into a slice of `n` bytes; `none` is the branch `n != int(length)` with a nil error (see `readSliceOrShort`) (fields/batchrecord.go, fields/recordheader.go) -/
def sliceVia (n : Nat) : Rd σ (Option Bytes) := fun st =>
  match q.read n st with
  | .error e => .error e
  | .ok (k, st') => .ok (if k.length = n then some k else none, st')

/-- recordheader.go:124-135, batchrecord.go:193-204, 213-224 -/
def nullableVia (len : Int) : Rd σ (Option (Option Bytes)) :=
  if len < 0 then Rd.ret (some none)
  else if len = 0 then Rd.ret (some (some []))
  else (sliceVia q len.toNat).andThen fun o => Rd.ret (o.map some)

/-- recordheader.go:105-115 -/
def headerKeyVia (len : Int) : Rd σ (Option (Option Bytes)) :=
  if len > 0 then (sliceVia q len.toNat).andThen fun o => Rd.ret (o.map some)
  else Rd.ret (some none)

/-- recordheader.go:99-141 -/
def headerVia : Rd σ RecordHeader :=
  (varint32Via q).andThen fun keyLength =>
  (headerKeyVia q keyLength).andThen fun ko =>
  match ko with
  | none => Rd.ret {}
  | some key =>
    (varint32Via q).andThen fun valueLength =>
    (nullableVia q valueLength).andThen fun vo =>
    match vo with
    | none => Rd.ret {}
    | some value => Rd.ret { key := key, value := value }

/-- batchrecord.go:232-237 -/
def headersVia : Nat → Rd σ (List RecordHeader)
  | 0 => Rd.ret []
  | n + 1 => (headerVia q).andThen fun h => (headersVia n).andThen fun hs => Rd.ret (h :: hs)

/-- batchrecord.go:231 `make`: a negative count panics -/
def countVia (n : Int) : Rd σ Nat := fun st => if n < 0 then .error .panic else .ok (n.toNat, st)

/-- batchrecord.go:164-252 -/
def recordVia : Rd σ BatchRecord :=
  (varint32Via q).andThen fun recordLength =>
  (int8Via q).andThen fun attr =>
  (varint64Via q).andThen fun timestampDelta =>
  (varint32Via q).andThen fun offsetDelta =>
  (varint32Via q).andThen fun keyLength =>
  (nullableVia q keyLength).andThen fun ko =>
  match ko with
  | none => Rd.ret {}
  | some key =>
    (varint32Via q).andThen fun valueLength =>
    (nullableVia q valueLength).andThen fun vo =>
    match vo with
    | none => Rd.ret {}
    | some value =>
      (varint32Via q).andThen fun numHeaders =>
      (countVia numHeaders).andThen fun n =>
      (headersVia q n).andThen fun headers =>
      let r : BatchRecord := { attributes := attr, timestampDelta, offsetDelta, key, value, headers := some headers }
      fun st => if (r.recordLength : Int) ≠ recordLength then .error .other else .ok (r, st)

/-- recordbatch.go:429-434 -/
def recordsVia : Nat → Rd σ (List BatchRecord)
  | 0 => Rd.ret []
  | n + 1 => (recordVia q).andThen fun r => (recordsVia n).andThen fun rs => Rd.ret (r :: rs)

end

/-! ### the plain source: the model of Verif/Kafka/Record.lean -/

theorem andThen_plain {α β : Type} {d : Rd Bytes α} {d' : Dec α} {f : α → Rd Bytes β} {f' : α → Dec β} (h : d = d') (hf : ∀ a, f a = f' a) :
    d.andThen f = (d' ⟫= f') := by
  subst h
  have : f = f' := funext hf
  subst this
  funext bs
  unfold Rd.andThen Dec.andThen
  cases d bs <;> rfl

theorem uvarintAux_plain : ∀ fuel s x bs, (s = 0 ∨ s ≠ 0) → uvarintAuxVia Source.plain fuel s x bs = readUvarintAux fuel s x bs
  | 0, _, _, _, _ => rfl
  | fuel + 1, s, x, bs, _ => by
    cases bs with
    | nil =>
      simp only [uvarintAuxVia, readUvarintAux, Source.plain]
      by_cases h : s = 0
      · simp [h]
      · simp [h]
    | cons b r =>
      have e : Source.plain.byte (b :: r) = .ok (b, r) := rfl
      simp only [uvarintAuxVia, readUvarintAux, e, uvarintAux_plain fuel _ _ r (Decidable.em _)]

theorem varint32_plain : varint32Via Source.plain = readVarint32 := by
  funext bs
  unfold varint32Via readVarint32 readUvarint32 readUvarint
  rw [uvarintAux_plain _ _ _ _ (.inl rfl)]
  cases readUvarintAux 10 0 0 bs with
  | error e => rfl
  | ok v =>
    obtain ⟨u, r⟩ := v
    simp only
    by_cases h : u ≥ 2^32
    · rw [if_pos h, if_pos h]
    · rw [if_neg h, if_neg h]

theorem varint64_plain : varint64Via Source.plain = readVarint64 := by
  funext bs
  unfold varint64Via readVarint64 readUvarint
  rw [uvarintAux_plain _ _ _ _ (.inl rfl)]
  cases readUvarintAux 10 0 0 bs with
  | error e => rfl
  | ok v => rfl

theorem int8_plain : int8Via Source.plain = readInt 1 := by
  funext bs
  unfold int8Via readInt Dec.andThen readExact
  cases bs with
  | nil => rfl
  | cons b r => simp [Source.plain, Dec.ret]

theorem slice_plain (n : Nat) : sliceVia Source.plain n = readSliceOrShort n := by
  funext bs
  unfold sliceVia readSliceOrShort readSome Dec.andThen
  cases bs with
  | nil => rfl
  | cons b r => simp [Source.plain, Dec.ret]

theorem nullable_plain (len : Int) : nullableVia Source.plain len = readNullableSlice len := by
  unfold nullableVia readNullableSlice
  by_cases h1 : len < 0
  · rw [if_pos h1, if_pos h1]; rfl
  · rw [if_neg h1, if_neg h1]
    by_cases h2 : len = 0
    · rw [if_pos h2, if_pos h2]; rfl
    · rw [if_neg h2, if_neg h2]
      exact andThen_plain (slice_plain _) fun _ => rfl

theorem headerKey_plain (len : Int) : headerKeyVia Source.plain len = readHeaderKey len := by
  unfold headerKeyVia readHeaderKey
  by_cases h1 : len > 0
  · rw [if_pos h1, if_pos h1]; exact andThen_plain (slice_plain _) fun _ => rfl
  · rw [if_neg h1, if_neg h1]; rfl

theorem header_plain : headerVia Source.plain = RecordHeader.read := by
  unfold headerVia RecordHeader.read
  refine andThen_plain varint32_plain fun k => andThen_plain (headerKey_plain k) fun ko => ?_
  cases ko with
  | none => rfl
  | some key =>
    refine andThen_plain varint32_plain fun v => andThen_plain (nullable_plain v) fun vo => ?_
    cases vo <;> rfl

theorem headers_plain (n : Nat) : headersVia Source.plain n = readHeaders n := by
  induction n with
  | zero => rfl
  | succ n ih =>
    unfold headersVia readHeaders
    exact andThen_plain header_plain fun h => andThen_plain ih fun hs => rfl

theorem count_plain (n : Int) : (countVia n : Rd Bytes Nat) = makeCount n := by
  funext bs
  unfold countVia makeCount
  by_cases h : n < 0
  · rw [if_pos h, if_pos h]; rfl
  · rw [if_neg h, if_neg h]; rfl

/-- on a source that has everything at hand, the readers are those of Verif/Kafka/Record.lean -/
theorem record_plain : recordVia Source.plain = BatchRecord.read := by
  unfold recordVia BatchRecord.read
  refine andThen_plain varint32_plain fun l => andThen_plain int8_plain fun a => andThen_plain varint64_plain fun t =>
    andThen_plain varint32_plain fun o => andThen_plain varint32_plain fun k => andThen_plain (nullable_plain k) fun ko => ?_
  cases ko with
  | none => rfl
  | some key =>
    refine andThen_plain varint32_plain fun v => andThen_plain (nullable_plain v) fun vo => ?_
    cases vo with
    | none => rfl
    | some value =>
      refine andThen_plain varint32_plain fun c => andThen_plain (count_plain c) fun n => andThen_plain (headers_plain n) fun hs => ?_
      funext st
      by_cases h : ((BatchRecord.mk a t o key value (some hs)).recordLength : Int) ≠ l
      · rw [if_pos h, if_pos h]; rfl
      · rw [if_neg h, if_neg h]; rfl

/-! ### sources that give everything asked for, up to a size -/

/-- what the source still holds; specification, models no code -/
structure Faithful {σ : Type} (q : Source σ) (data : σ → Bytes) (ok : σ → Prop) (lim : Nat) : Prop where
  byte : ∀ s b rest, ok s → data s = b :: rest → ∃ s', q.byte s = .ok (b, s') ∧ data s' = rest ∧ ok s'
  read : ∀ s a rest, ok s → a ≠ [] → a.length < lim → data s = a ++ rest → ∃ s', q.read a.length s = .ok (a, s') ∧ data s' = rest ∧ ok s'

/-- reading `enc` followed by anything yields `a` and leaves the rest; specification, models no code -/
def GRT {σ α : Type} (data : σ → Bytes) (ok : σ → Prop) (enc : Bytes) (d : Rd σ α) (a : α) : Prop :=
  ∀ s rest, ok s → data s = enc ++ rest → ∃ s', d s = .ok (a, s') ∧ data s' = rest ∧ ok s'

section
variable {σ : Type} {q : Source σ} {data : σ → Bytes} {ok : σ → Prop} {lim : Nat}

theorem GRT.ret {α : Type} (a : α) : GRT data ok [] (Rd.ret a) a := fun s _ ho h => ⟨s, rfl, h, ho⟩

theorem GRT.bind {α β : Type} {e1 e2 : Bytes} {d : Rd σ α} {f : α → Rd σ β} {a : α} {b : β}
    (h1 : GRT data ok e1 d a) (h2 : GRT data ok e2 (f a) b) : GRT data ok (e1 ++ e2) (d.andThen f) b := by
  intro s rest ho h
  rw [List.append_assoc] at h
  obtain ⟨s', e1', d1, o1⟩ := h1 s _ ho h
  obtain ⟨s2, e2', d2, o2⟩ := h2 s' rest o1 d1
  refine ⟨s2, ?_, d2, o2⟩
  unfold Rd.andThen
  rw [e1']
  exact e2'

theorem GRT.map {α β : Type} {e1 : Bytes} {d : Rd σ α} {f : α → Rd σ β} {a : α} {b : β}
    (h1 : GRT data ok e1 d a) (h2 : GRT data ok [] (f a) b) : GRT data ok e1 (d.andThen f) b := by
  have := h1.bind h2; simpa using this

/-- varints read byte by byte are those of the bytes at hand -/
theorem uvarintAux_grt (hq : Faithful q data ok lim) : ∀ fuel s x st v rest, ok st → readUvarintAux fuel s x (data st) = .ok (v, rest) →
    ∃ st', uvarintAuxVia q fuel s x st = .ok (v, st') ∧ data st' = rest ∧ ok st'
  | 0, _, _, _, _, _, _, h => by cases h
  | fuel + 1, s, x, st, v, rest, ho, h => by
    cases hd : data st with
    | nil => rw [hd] at h; cases h
    | cons b r =>
      rw [hd] at h
      obtain ⟨st', e, d, o⟩ := hq.byte st b r ho hd
      simp only [readUvarintAux] at h
      simp only [uvarintAuxVia, e]
      by_cases h1 : b < 0x80
      · rw [if_pos h1] at h ⊢
        by_cases h2 : fuel = 0 ∧ b > 1
        · rw [if_pos h2] at h; cases h
        · rw [if_neg h2] at h ⊢
          simp only [Except.ok.injEq, Prod.mk.injEq] at h
          exact ⟨st', by rw [h.1], by rw [d, h.2], o⟩
      · rw [if_neg h1] at h ⊢
        rw [← d] at h
        exact uvarintAux_grt hq fuel _ _ st' v rest o h

theorem varint32_grt (hq : Faithful q data ok lim) (v : Int) (h1 : -2^31 ≤ v) (h2 : v < 2^31) : GRT data ok (putVarint v) (varint32Via q) v := by
  intro s rest ho h
  have := RT.varint32 v h1 h2 rest
  rw [← h] at this
  unfold readVarint32 readUvarint32 readUvarint at this
  cases hu : readUvarintAux 10 0 0 (data s) with
  | error e => rw [hu] at this; cases this
  | ok w =>
    obtain ⟨u, r⟩ := w
    rw [hu] at this
    obtain ⟨s', e, d, o⟩ := uvarintAux_grt hq 10 0 0 s u r ho hu
    simp only at this
    by_cases hb : u ≥ 2^32
    · rw [if_pos hb] at this; cases this
    · rw [if_neg hb] at this
      simp only [Except.ok.injEq, Prod.mk.injEq] at this
      refine ⟨s', ?_, by rw [d, this.2], o⟩
      unfold varint32Via
      rw [e]
      simp only
      rw [if_neg hb, this.1]

theorem varint64_grt (hq : Faithful q data ok lim) (v : Int) (h1 : -2^63 ≤ v) (h2 : v < 2^63) : GRT data ok (putVarint v) (varint64Via q) v := by
  intro s rest ho h
  have := RT.varint64 v h1 h2 rest
  rw [← h] at this
  unfold readVarint64 readUvarint at this
  cases hu : readUvarintAux 10 0 0 (data s) with
  | error e => rw [hu] at this; cases this
  | ok w =>
    obtain ⟨u, r⟩ := w
    rw [hu] at this
    obtain ⟨s', e, d, o⟩ := uvarintAux_grt hq 10 0 0 s u r ho hu
    simp only [Except.ok.injEq, Prod.mk.injEq] at this
    refine ⟨s', ?_, by rw [d, this.2], o⟩
    unfold varint64Via
    rw [e]
    simp only
    rw [this.1]

theorem int8_grt (hq : Faithful q data ok lim) (hl : 1 < lim) (v : Int) (h : InS 1 v) : GRT data ok (putInt 1 v) (int8Via q) v := by
  intro s rest ho hd
  have hlen : (putInt 1 v).length = 1 := by simp [putInt]
  obtain ⟨s', e, d, o⟩ := hq.read s (putInt 1 v) rest ho (by intro h0; rw [h0] at hlen; simp at hlen) (by rw [hlen]; exact hl) hd
  rw [hlen] at e
  have := RT.int 1 (by decide) v h rest
  unfold readInt Dec.andThen at this
  rw [readExact_append _ _ hlen (by decide)] at this
  simp only [Dec.ret, Except.ok.injEq, Prod.mk.injEq, and_true] at this
  refine ⟨s', ?_, d, o⟩
  unfold int8Via
  rw [e]
  simp only
  rw [if_neg (by simp [hlen]), this]

theorem slice_grt (hq : Faithful q data ok lim) (b : Bytes) (hb : b ≠ []) (hl : b.length < lim) : GRT data ok b (sliceVia q b.length) (some b) := by
  intro s rest ho hd
  obtain ⟨s', e, d, o⟩ := hq.read s b rest ho hb hl hd
  refine ⟨s', ?_, d, o⟩
  unfold sliceVia
  rw [e]
  simp

theorem nullable_grt (hq : Faithful q data ok lim) (o : Option Bytes) (h : (slice o).length < 2^31) (hl : (slice o).length < lim) :
    GRT data ok (slice o) (nullableVia q (nullableLen o)) (some o) := by
  unfold nullableVia nullableLen
  cases o with
  | none => exact GRT.ret _
  | some b =>
    simp only [slice, Option.getD_some] at *
    have : len32 b = b.length := wrapS4_of_lt h
    simp only [this]
    rw [if_neg (by omega)]
    by_cases hb : b = []
    · subst hb; exact GRT.ret _
    · have := List.length_pos_iff.mpr hb
      rw [if_neg (by omega)]
      simp only [Int.toNat_natCast]
      exact GRT.map (slice_grt hq b hb hl) (GRT.ret _)

theorem headerKey_grt (hq : Faithful q data ok lim) (o : Option Bytes) (h : (slice o).length < 2^31) (hl : (slice o).length < lim) :
    GRT data ok (slice o) (headerKeyVia q (len32 (slice o))) (some (normKey o)) := by
  unfold headerKeyVia
  have he : len32 (slice o) = (slice o).length := wrapS4_of_lt h
  rw [he]
  unfold normKey
  by_cases hb : slice o = []
  · rw [hb, if_neg (by simp), if_pos rfl]
    exact GRT.ret _
  · have := List.length_pos_iff.mpr hb
    rw [if_pos (by omega), if_neg hb]
    simp only [Int.toNat_natCast]
    have ho : o = some (slice o) := by
      cases o with
      | none => simp [slice] at hb
      | some b => rfl
    apply GRT.map (slice_grt hq _ hb hl)
    rw [Option.map_some, ← ho]
    exact GRT.ret _

theorem header_grt (hq : Faithful q data ok lim) (h : RecordHeader) (hk : h.Ok) (h1 : (slice h.key).length < lim) (h2 : (slice h.value).length < lim) :
    GRT data ok h.enc (headerVia q) h.norm := by
  have r1 := len32_range _ hk.1
  have r2 := nullableLen_range _ hk.2
  unfold RecordHeader.enc headerVia
  apply GRT.bind (varint32_grt hq _ r1.1 r1.2)
  apply GRT.bind (headerKey_grt hq _ hk.1 h1)
  apply GRT.bind (varint32_grt hq _ r2.1 r2.2)
  apply GRT.map (nullable_grt hq _ hk.2 h2)
  exact GRT.ret _

theorem headers_grt (hq : Faithful q data ok lim) (hs : List RecordHeader) (hk : ∀ h ∈ hs, h.Ok)
    (hl : ∀ h ∈ hs, (slice h.key).length < lim ∧ (slice h.value).length < lim) :
    GRT data ok (encHeaders hs) (headersVia q hs.length) (hs.map RecordHeader.norm) := by
  induction hs with
  | nil => exact GRT.ret _
  | cons h hs ih =>
    have : encHeaders (h :: hs) = h.enc ++ encHeaders hs := by simp [encHeaders]
    rw [this]
    simp only [List.length_cons, headersVia]
    apply GRT.bind (header_grt hq h (hk h (by simp)) (hl h (by simp)).1 (hl h (by simp)).2)
    apply GRT.map (ih (fun g hg => hk g (by simp [hg])) (fun g hg => hl g (by simp [hg])))
    exact GRT.ret _

theorem count_grt (n : Nat) : GRT data ok [] (countVia n) n := by
  intro s rest ho h
  refine ⟨s, ?_, h, ho⟩
  unfold countVia
  rw [if_neg (by omega)]; rfl

/-- everything a record holds is shorter than a limit; specification, models no code -/
structure BatchRecord.Below (r : BatchRecord) (lim : Nat) : Prop where
  key : (slice r.key).length < lim
  value : (slice r.value).length < lim
  headers : ∀ h ∈ r.headerList, (slice h.key).length < lim ∧ (slice h.value).length < lim

theorem record_grt (hq : Faithful q data ok lim) (hl : 1 < lim) (r : BatchRecord) (h : r.Ok) (hb : r.Below lim) : GRT data ok r.enc (recordVia q) r.norm := by
  have hlen := wrapS4_of_lt h.len
  have hk := nullableLen_range _ h.klen
  have hv := nullableLen_range _ h.vlen
  have hc := wrapS4_of_lt h.hcount
  have hcr := h.hcount
  have hlr := h.len
  have hh : r.headers = some r.headerList := by
    cases hh : r.headers with
    | none => exact absurd hh h.hdr
    | some hs => simp [BatchRecord.headerList, hh]
  unfold BatchRecord.enc BatchRecord.body recordVia
  apply GRT.bind (varint32_grt hq _ (by rw [hlen]; omega) (by rw [hlen]; omega))
  apply GRT.bind (int8_grt hq hl _ h.attr)
  apply GRT.bind (varint64_grt hq _ h.ts.1 h.ts.2)
  apply GRT.bind (varint32_grt hq _ h.off.1 h.off.2)
  apply GRT.bind (varint32_grt hq _ hk.1 hk.2)
  apply GRT.bind (nullable_grt hq _ h.klen hb.key)
  apply GRT.bind (varint32_grt hq _ hv.1 hv.2)
  apply GRT.bind (nullable_grt hq _ h.vlen hb.value)
  apply GRT.bind (varint32_grt hq _ (by rw [hc]; omega) (by rw [hc]; omega))
  rw [hc]
  refine GRT.bind (e1 := []) (count_grt _) ?_
  apply GRT.map (headers_grt hq _ h.hlen hb.headers)
  intro s rest ho hd
  have hn := r.norm_recordLength
  have he : r.norm = BatchRecord.mk r.attributes r.timestampDelta r.offsetDelta r.key r.value
      (some (r.headerList.map RecordHeader.norm)) := by
    unfold BatchRecord.norm; rw [hh]; rfl
  refine ⟨s, ?_, hd, ho⟩
  simp only
  rw [← he, hn, hlen, if_neg (by simp)]

theorem records_grt (hq : Faithful q data ok lim) (hl : 1 < lim) (rs : List BatchRecord) (h : ∀ r ∈ rs, r.Ok ∧ r.Below lim) :
    GRT data ok ((rs.map BatchRecord.enc).flatten) (recordsVia q rs.length) (rs.map BatchRecord.norm) := by
  induction rs with
  | nil => exact GRT.ret _
  | cons r rs ih =>
    simp only [List.map_cons, List.flatten_cons, List.length_cons, recordsVia]
    apply GRT.bind (record_grt hq hl r (h r (by simp)).1 (h r (by simp)).2)
    apply GRT.map (ih (fun g hg => h g (by simp [hg])))
    exact GRT.ret _
end

end Verif.Kafka
