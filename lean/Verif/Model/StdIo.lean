import Verif.Model.Com

/-!
# Methods a serial processor gets from `std::io::Read` and `std::io::Write`

`Coupler::reader` and `Coupler::writer` (`src/ur20_fbc_mod_tcp.rs`) hand out a `MessageProcessor` as
a `Read` and a `Write`. The provided methods of these traits, which the code does not override, call
`read` and `write` (`src/ur20_1com_232_485_422.rs:460-486`) as modelled here.
-/

namespace Ur20.Com

/-- `Read::read_to_end`: reads with buffers of any positive sizes until a read returns no bytes. The
sizes are up to the standard library. -/
inductive ReadToEnd : MessageProcessor → List Byte → MessageProcessor → Prop
  | done {p p' : MessageProcessor} (n : Nat) (hn : 0 < n) (h : p.read n = .ok (p', [])) :
    ReadToEnd p [] p'
  | more {p p' p'' : MessageProcessor} {b bs : List Byte} (n : Nat) (hn : 0 < n)
    (h : p.read n = .ok (p', b)) (hb : b ≠ []) (rest : ReadToEnd p' bs p'') :
    ReadToEnd p (b ++ bs) p''

/-- The loop of `Read::read_exact`, `fuel` reads at most: reads into what is left of the buffer until
it is full or a read returns no bytes, which is the error `UnexpectedEof` (`none`). -/
def readExactLoop : Nat → MessageProcessor → Nat → List Byte →
    Res (MessageProcessor × Option (List Byte))
  | 0, _, _, _ => .panic
  | fuel + 1, p, n, acc =>
    if n = 0 then .ok (p, some acc)
    else (p.read n).bind fun r =>
      if r.2 = [] then .ok (r.1, none) else readExactLoop fuel r.1 (n - r.2.length) (acc ++ r.2)

/-- `Read::read_exact` with a buffer of `n` bytes. Every read but the last returns a byte at
least. -/
def MessageProcessor.readExact (p : MessageProcessor) (n : Nat) :
    Res (MessageProcessor × Option (List Byte)) := readExactLoop (n + 1) p n []

/-- The loop of `Write::write_all`: `write` with what is left of the buffer until it is empty;
`write` returning 0 is the error `WriteZero`. -/
def writeAllLoop : Nat → MessageProcessor → List Byte → MessageProcessor × Bool
  | 0, p, buf => (p, buf.isEmpty)
  | fuel + 1, p, buf =>
    if buf.isEmpty then (p, true)
    else
      let r := p.write buf
      if r.2 = 0 then (r.1, false) else writeAllLoop fuel r.1 (buf.drop r.2)

/-- `Write::write_all`: the state and whether it succeeds. -/
def MessageProcessor.writeAll (p : MessageProcessor) (buf : List Byte) : MessageProcessor × Bool :=
  writeAllLoop buf.length p buf

/-- `Write::flush`, `src/ur20_1com_232_485_422.rs:483-485`. -/
def MessageProcessor.flush (p : MessageProcessor) : MessageProcessor := p

end Ur20.Com
