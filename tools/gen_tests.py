"""Translates the tests of /repo into Lean: lean/Verif/Tests/Codec.lean. The model has to give the results that the tests of the project
expect of the code. Run after a change of the model's interface: python3 tools/gen_tests.py"""
import re, glob, os

REPO = "/repo"
OUT = "/verif/lean/Verif/Tests/Codec.lean"

# ---- Go expressions -------------------------------------------------------------------------------------------------------------
TOK = re.compile(r'\s+|//[^\n]*|(0x[0-9a-fA-F]+|\d+)|("(?:[^"\\]|\\.)*")|(\[\]\*?[A-Za-z.]+)|([A-Za-z_][A-Za-z_0-9.]*)|([{}(),:&])')

def tokens(s):
    i, out = 0, []
    while i < len(s):
        m = TOK.match(s, i)
        if not m: raise ValueError(s[i:i + 60])
        i = m.end()
        if m.group(1): out.append(("num", int(m.group(1), 0)))
        elif m.group(2): out.append(("str", eval(m.group(2))))
        elif m.group(3): out.append(("type", m.group(3)))
        elif m.group(4): out.append(("id", m.group(4)))
        elif m.group(5): out.append(("p", m.group(5)))
    return out

class Parser:
    def __init__(self, s): self.t, self.i = tokens(s), 0
    def peek(self): return self.t[self.i] if self.i < len(self.t) else ("end", None)
    def take(self, want=None):
        x = self.peek(); self.i += 1
        if want is not None and x != want: raise ValueError((x, want, self.t[self.i:self.i + 10]))
        return x
    def items(self, close):
        xs = []
        while self.peek() != ("p", close):
            xs.append(self.expr())
            if self.peek() == ("p", ","): self.take()
        self.take(("p", close))
        return xs
    def expr(self):
        k, v = self.take()
        if k in ("num", "str"): return (k, v)
        if k == "type":
            if self.peek() == ("p", "("):
                self.take(); return ("conv", v, self.items(")"))
            self.take(("p", "{")); return ("list", v, self.items("}"))
        if k == "id":
            if self.peek() == ("p", "("):
                self.take(); return ("call", v, self.items(")"))
            if self.peek() == ("p", ":"):
                self.take(); return ("field", v, self.expr())
            return ("id", v)
        if (k, v) == ("p", "{"): return ("struct", self.items("}"))
        raise ValueError((k, v))

def body(src, test):
    """The literal of `cases := []T{ ... }` in a test."""
    i = src.index("func %s(" % test)
    i = src.index("cases := []", i)
    m = re.compile(r"cases := \[\](?:struct \{.*?\n\t\}|[A-Za-z]+)\{", re.S).match(src, i)
    j, depth = m.end(), 1
    while depth:
        c = src[j]
        if c == "/" and src[j:j + 2] == "//": j = src.index("\n", j)
        elif c == '"': j = src.index('"', j + 1)
        elif c == "{": depth += 1
        elif c == "}": depth -= 1
        j += 1
    p = Parser(src[m.end():j - 1] + "}")
    line = src.count("\n", 0, m.start()) + 1
    return [x[1] for x in p.items("}")], line

# ---- Lean terms -----------------------------------------------------------------------------------------------------------------
CONST = {"InvalidVersionError": "errorCode", "AsStateActive": "asState", "UserIdentityUnknown": "unavailability", "SCCP": "mtp3User"}
MANY = {"NewRoutingContext", "NewAffectedPointCode", "NewOriginatingPointCodeList", "NewServiceIndicators"}
FAIL = {"NewProtocolData", "NewRegistrationResult", "NewDeregistrationResult", "NewRoutingKey"}   # return `Res Param` in the model
NAMES = {"DestinationUnavailable": "Duna", "DestinationAvailable": "Dava", "DestinationStateAudit": "Daud", "SignallingCongestion": "Scon",
         "DestinationUserPartUnavailable": "Dupu", "DestinationRestricted": "Drst"}

def bytes_of(e):
    if e[0] == "list": return "[" + ", ".join("0x%02x" % x[1] for x in e[2]) + "]"
    if e[0] == "conv": return bytes_of(e[2][0])
    if e[0] == "str": return "[" + ", ".join("0x%02x" % c for c in e[1].encode()) + "]"
    raise ValueError(e)

def scalar(e):
    if e[0] == "num": return str(e[1])
    if e[0] == "id":
        n = e[1].split(".")[-1]
        return "(constant Const.%s \"%s\")" % (CONST[n], n)
    return bytes_of(e)

class Builder:
    """Collects `let x ← ...` lines for the constructors that can fail."""
    def __init__(self): self.lets = []
    def param(self, e):
        n = e[1].split(".")[-1]
        if n == "NewParam": t = "Param.new %s %s" % (scalar(e[2][0]), scalar(e[2][1]))
        elif n in ("NewRegistrationResult", "NewDeregistrationResult", "NewRoutingKey"):
            inner = e[2][0]
            t = "Param.new%s ⟨%s⟩" % (n[3:], ", ".join(self.opt(x) for x in inner[2]))
        elif n in MANY: t = "Param.new%s [%s]" % (n[3:], ", ".join(scalar(x) for x in e[2]))
        else: t = "Param.new%s %s" % (n[3:], " ".join(scalar(x) for x in e[2]))
        if n in FAIL:
            v = "x%d" % len(self.lets)
            self.lets.append("let %s ← %s" % (v, t))
            return v
        return "(" + t + ")"
    def opt(self, e):
        return "none" if e == ("id", "nil") else "(some %s)" % self.param(e)
    def do(self, last): return "do " + "; ".join(self.lets + ["return " + last])

out = ["""import Verif.Model.Message
import Verif.Model.Names
import Verif.Model.ParamKinds
import Verif.Model.Constants
import Verif.Model.Pc

/-
The tests of the project, evaluated on the model; written by `tools/gen_tests.py` from the `_test.go` files. These are tests of the model, not
theorems about it: they show that it gives the results that the authors of the code expect of the code.
-/

set_option autoImplicit false

namespace M3.Tests

/-- A constant of package `params`. -/
def constant {α : Type} [OfNat α 0] [NatCast α] (b : ConstBlock) (n : String) : α := ((b.get n).getD 0 : Nat)

local instance : NatCast UInt16 := ⟨UInt16.ofNat⟩
local instance : NatCast UInt32 := ⟨UInt32.ofNat⟩

/-- `runTests`, `messages/testutils_test.go:32-90`: decoding, with the payload of the header removed as all tests of messages do; encoding; length; and
the message that `Parse` returns has the class, the type and the names of the other. -/
def codec (built : Res M3UA) (bytes : Bytes) (decode : Bytes → Res M3UA) : Bool :=
  match built with
  | .ok m =>
    decide (decode bytes = .ok m) &&
    (match m.marshalBinary with | .ok (_, b) => b == bytes | _ => false) &&
    m.marshalLen == bytes.length &&
    (match M3UA.parse bytes with
      | .ok p => p.messageClass == m.messageClass && p.messageClassName == m.messageClassName && p.messageType == m.messageType &&
          p.messageTypeName == m.messageTypeName
      | _ => false)
  | _ => false

/-- `messages/params/params_test.go:220-241`. -/
def param (built : Res Param) (bytes : Bytes) : Bool :=
  match built with
  | .ok p => decide (p.marshalBinary = .ok bytes) && decide (Param.parse bytes = .ok p)
  | _ => false

/-- `pc/pc_test.go:48-68`. -/
def pointCode (raw : BitVec 32) (cur next : Pc.Variant) (before after : Bytes) : Bool :=
  match Pc.newPointCode raw cur, Pc.newPointCodeFrom before cur, Pc.newPointCodeFrom after next with
  | some p, some q, some r => p.string == before && q.uint32 == p.uint32 && (p.convertTo next).2 == some after && r.uint32 == p.uint32
  | _, _, _ => false
"""]

count = 0
for f in sorted(glob.glob(REPO + "/messages/*_test.go")):
    src = open(f).read()
    rel = os.path.relpath(f, REPO)
    for test in re.findall(r"func (Test\w+)\(", src):
        cases, line = body(src, test)
        if test == "TestParseMalformed":
            out.append("-- %s, %s:%d" % (test, rel, line))
            for c in cases:
                assert c[1] == ("id", "ErrTooShortToParse")
                out.append("example : M3UA.parse %s = .err .msgTooShortToParse := by decide +kernel" % bytes_of(c[0])); count += 1
            continue
        out.append("\n-- %s, %s:%d" % (test, rel, line))
        for c in cases:
            name, made, ser = c
            b = Builder()
            bs = bytes_of(ser)
            ctor = made[1]
            count += 1
            if ctor == "NewHeader":
                a = made[2]
                h = "(Header.new %s)" % " ".join(scalar(x) for x in a)
                out.append("/-- %s -/\nexample : %s.marshalBinary = .ok %s ∧ Header.parse %s = .ok %s ∧ %s.marshalLen = %d := by decide +kernel" % (
                    name[1], h, bs, bs, h, h, len(ser[2])))
                continue
            if ctor == "New":
                a = made[2]
                term = "M3UA.generic (Msg.Generic.new %s [%s])" % (" ".join(scalar(x) for x in a[:3]), ", ".join(b.param(x) for x in a[3:]))
                typ, con = "Generic", "generic"
            else:
                n = ctor[3:]
                typ = NAMES.get(n, n)
                con, typ = typ[0].lower() + typ[1:], n
                term = "M3UA.%s (Msg.%s.new %s)" % (con, typ, " ".join(b.opt(x) for x in made[2]))
            out.append("""/-- %s -/
example : codec (%s)
    %s
    (fun b => do let v ← Msg.%s.parse b; return M3UA.%s { v with header := { v.header with payload := [] } }) = true := by decide +kernel""" % (
                name[1], b.do(term), bs, typ, con))

f = REPO + "/messages/params/params_test.go"
src = open(f).read()
cases, line = body(src, "TestParams")
out.append("\n-- TestParams, messages/params/params_test.go:%d" % line)
for name, made, ser in cases:
    b = Builder(); v = b.param(made); count += 1
    out.append("/-- %s -/\nexample : param (%s) %s = true := by decide +kernel" % (name[1], b.do(v), bytes_of(ser)))
cases, line = body(src, "TestParseMultiParams")
out.append("\n-- TestParseMultiParams, messages/params/params_test.go:%d" % line)
for name, made, ser in cases:
    b = Builder(); count += 1
    out.append("/-- %s -/\nexample : parseMultiParams %s = .ok [%s] := by decide +kernel" % (name[1], bytes_of(ser), ", ".join(b.param(x) for x in made[2])))
cases, line = body(src, "TestParseMalformed")
out.append("\n-- TestParseMalformed, messages/params/params_test.go:%d" % line)
for data, err in cases:
    e = {"ErrTooShortToParse": ".paramTooShortToParse", "ErrInvalidLength": ".paramInvalidLength"}[err[1]]; count += 1
    out.append("example : Param.parse %s = .err %s ∧ parseMultiParams %s = .err %s := by decide +kernel" % (bytes_of(data), e, bytes_of(data), e))

src = open(REPO + "/pc/pc_test.go").read()
cases, line = body(src, "TestConvertPointCode")
out.append("\n-- TestConvertPointCode, pc/pc_test.go:%d" % line)
for c in cases:
    d = {x[1]: x[2] for x in c}; count += 1
    v = lambda e: "Pc.v" + e[1].split(".")[-1][1:]
    out.append("/-- %s -/\nexample : pointCode %s %s %s %s %s = true := by decide +kernel" % (
        d["name"][1], scalar(d["raw"]), v(d["currVar"]), v(d["nextVar"]), bytes_of(d["before"]), bytes_of(d["after"])))
out.append("\nend M3.Tests")
os.makedirs(os.path.dirname(OUT), exist_ok=True)
open(OUT, "w").write("\n".join(out) + "\n")
print(count, "cases")
