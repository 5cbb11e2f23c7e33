import Verif.Model.Go

/-!
# Length-prefixed frames

libs/go/libp2p_node/utils/utils.go:615-650 (`WriteBytesConn`, `ReadBytesConn`), 673-745
(`ReadBytes`, `WriteBytes`), libs/go/libp2p_node/aea/pipe.go:51-79 and
libs/go/aealite/connections/tcpsocket.go:84-105 (`Read`, `Write`).

The receiving end of a connection is the list of segments still to come, followed by the end of
the stream. One `Read` with a non-empty buffer returns bytes of the first segment only, as many
as fit; a transport that joins segments is a different list. `Write` of a connection writes all
bytes or fails, and failing writes are not modelled.
-/

namespace Verif

/-- Errors of reading and writing frames. -/
inductive FErr where
  | tooLarge        -- "data size too large", "value too large", or larger than the maximum
  | eof             -- `io.EOF`
  | unexpectedEof   -- `io.ErrUnexpectedEOF`
  deriving DecidableEq, Repr

/-- `binary.BigEndian.PutUint32(buf, uint32(n))` -/
def be32 (n : Nat) : Bytes :=
  [(n / 2 ^ 24 % 256).toUInt8, (n / 2 ^ 16 % 256).toUInt8, (n / 2 ^ 8 % 256).toUInt8,
    (n % 256).toUInt8]

/-- `binary.BigEndian.Uint32(buf)` of the first four bytes -/
def be32ToNat (b : Bytes) : Nat :=
  match b with
  | b0 :: b1 :: b2 :: b3 :: _ =>
    b0.toNat * 2 ^ 24 + b1.toNat * 2 ^ 16 + b2.toNat * 2 ^ 8 + b3.toNat
  | _ => 0

/-- A frame: size and data. -/
def frame (data : Bytes) : Bytes := be32 data.length ++ data

/-- `math.MaxInt32` -/
abbrev maxInt32 : Nat := 2147483647

/-- `maxMessageSizeDelegateConnection`: utils.go:63 -/
abbrev maxMessageSize : Nat := 1024 * 1024 * 3

/-! ## Writing -/

/-- The bytes `WriteBytesConn` (utils.go:615-632) and `WriteBytes` (utils.go:703-745) put on the
wire. An empty message writes nothing and is no error. -/
def writeBytes (data : Bytes) : Res FErr Bytes :=
  if maxInt32 < data.length then .err .tooLarge
  else if data.length = 0 then .ok []
  else .ok (frame data)

/-- `TCPSocketChannel.Write` of libp2p_node: pipe.go:66-79 -/
def pipeWrite (data : Bytes) : Res FErr Bytes :=
  if maxInt32 < data.length then .err .tooLarge else .ok (frame data)

/-- `TCPSocketChannel.Write` of aealite: tcpsocket.go:97-105. The size is cut to 32 bits, and so
is the capacity `4+size`; `make` panics if the capacity is below the length 4. -/
def liteWrite (data : Bytes) : Res FErr Bytes :=
  if (4 + data.length % 2 ^ 32) % 2 ^ 32 < 4 then .panic else .ok (frame data)

/-! ## Reading with single `Read` calls -/

/-- One `conn.Read` into a buffer of `n` bytes: the bytes read and what remains. An empty
buffer reads nothing; `none` is the end of the stream. Empty segments do not occur in a
stream. -/
def readOnce (n : Nat) (cs : List Bytes) : Option (Bytes × List Bytes) :=
  if n = 0 then some ([], cs)
  else match cs with
    | [] => none
    | c :: cs => some (c.take n, if c.drop n = [] then cs else c.drop n :: cs)

/-- The buffer after a short read keeps zeros at its end. -/
def padTo (n : Nat) (b : Bytes) : Bytes := b ++ List.replicate (n - b.length) 0

/-- `ReadBytesConn` (utils.go:635-650, with limit `some maxMessageSize`), `TCPSocketChannel.Read`
of libp2p_node (pipe.go:51-64) and of aealite (tcpsocket.go:84-95), without limit. The number of
bytes read is ignored. -/
def readConn (limit : Option Nat) (cs : List Bytes) : Res FErr Bytes × List Bytes :=
  match readOnce 4 cs with
  | none => (.err .eof, cs)
  | some (h, cs1) =>
    let size := be32ToNat (padTo 4 h)
    if limit.any (· < size) then (.err .tooLarge, cs1)
    else match readOnce size cs1 with
      | none => (.err .eof, cs1)
      | some (d, cs2) => (.ok (padTo size d), cs2)

/-! ## Reading through a buffered reader -/

/-- The default buffer size of `bufio.NewReader`. -/
abbrev bufioSize : Nat := 4096

/-- `bufio.Reader.Read` into `n > 0` bytes: from the buffer if there is something in it; else
one `Read` of the stream, directly if `n` is at least the buffer size. -/
def bufRead (n : Nat) (buf : Bytes) (cs : List Bytes) : Option (Bytes × Bytes × List Bytes) :=
  if buf ≠ [] then some (buf.take n, buf.drop n, cs)
  else if bufioSize ≤ n then (readOnce n cs).map fun (d, cs) => (d, [], cs)
  else (readOnce bufioSize cs).map fun (d, cs) => (d.take n, d.drop n, cs)

/-- `io.ReadFull` on a buffered reader; `fuel` bounds the number of reads. `EOF` if nothing was
read at all, `ErrUnexpectedEOF` if less than asked for. -/
def readFull (fuel : Nat) (n : Nat) (acc buf : Bytes) (cs : List Bytes) :
    Res FErr Bytes × Bytes × List Bytes :=
  if n = 0 then (.ok acc, buf, cs)
  else match fuel with
    | 0 => (.err .unexpectedEof, buf, cs)
    | fuel + 1 =>
      match bufRead n buf cs with
      | none => (.err (if acc = [] then .eof else .unexpectedEof), buf, cs)
      | some (d, buf, cs) => readFull fuel (n - d.length) (acc ++ d) buf cs

/-- `ReadBytes`: utils.go:673-700. The buffered reader is new in every call, and what is left in
it at the end is lost. -/
def readStream (cs : List Bytes) : Res FErr Bytes × List Bytes :=
  match readFull 4 4 [] [] cs with
  | (.ok h, buf, cs) =>
    let size := be32ToNat h
    if maxMessageSize < size then (.err .tooLarge, cs)
    else
      let r := readFull size size [] buf cs
      (r.1, r.2.2)
  | (.err e, _, cs) => (.err e, cs)
  | (.panic, _, cs) => (.panic, cs)

end Verif
