#!/usr/bin/env python3
"""Write lean/Verif/Conformance.lean: the test vectors of /repo/tests replayed on the model.
Only literals are taken from the test files (with `ast`); no code of the project is run."""
import ast, struct, datetime
T = "/repo/tests/"
def lit(b): return "[" + ", ".join("0x%02X" % x for x in b) + "]"
def fold(b, ind="  "):
    out, line = [], ""
    for i, x in enumerate(b):
        t = "0x%02X" % x + (", " if i + 1 < len(b) else "")
        if len(line) + len(t) > 100: out.append(line.rstrip()); line = ""
        line += t
    return "[" + ("\n" + ind).join(out + [line]) + "]"
def s(x): return '"' + x.replace("\\", "\\\\").replace('"', '\\"') + '".toList'
def tree(f): return ast.parse(open(T + f).read())
def func(t, name): return next(n for n in ast.walk(t) if isinstance(n, ast.FunctionDef) and n.name == name)
def byteslits(node): return [n.value for n in ast.walk(node) if isinstance(n, ast.Constant) and isinstance(n.value, bytes)]
def strs(node): return [n.value for n in ast.walk(node) if isinstance(n, ast.Constant) and isinstance(n.value, str)]
o = []
w = o.append
w("""import Verif.Props.Parameters
import Verif.Props.Client
import Verif.Lemmas.Aes
/-!
The test vectors of /repo/tests replayed on the model (written by tools/gen_conformance.py, which takes
the literals out of the test files).  These are tests of the *model*: they show that it computes what
the repository's own tests expect of the code.  They are not counted as proofs of any property.
-/
namespace Elgas.Conformance
open Spec
""")
# ---- test_utils
u = tree("test_utils.py")
def hexes(fn): return [x for x in strs(func(u, fn)) if len(x) > 8 and all(c in "0123456789abcdefABCDEF" for c in x)]
for fn, f, exp in [("test_lrc", "calculateLrc", [0x19, 0x20]), ("test_checksum", "calculateChecksum", [0xFD, 0xD4]), ("test_drc", "calculateDrc", [0x19, 0x9B])]:
    hs = hexes(fn)
    assert len(hs) == 2
    w(f"-- test_utils.py {fn}")
    for h, e in zip(hs, exp):
        w(f"example : {f} {lit(bytes.fromhex(h))} = 0x{e:02X} := by decide +kernel")
ho = hexes("test_return_characters")
inp = byteslits(func(u, "test_escape_characters"))
oh = hexes("test_escape_characters")
# adjacent literals are joined by the parser
w("\n-- test_utils.py test_escape_characters, test_return_characters")
assert len(inp) == 2 and len(oh) == 2 and [x.upper() for x in ho] == [x.upper() for x in oh]
for b, h in zip(inp, oh):
    e = bytes.fromhex(h)
    w(f"example : escapeCharacters\n  {fold(b)} = .ok\n  {fold(e)} := by decide +kernel")
    w(f"example : returnCharacters\n  {fold(e)} = .ok\n  {fold(b)} := by decide +kernel")
    w(f"example : calculateLrc {fold(b[1:-4])} = 0x{b[-4]:02X} := by decide +kernel")
    w(f"example : calculateChecksum {fold(b[1:-4])} = 0x{b[-3]:02X} := by decide +kernel")
    w(f"example : calculateDrc {fold(b[1:-4])} = 0x{b[-2]:02X} := by decide +kernel")
w("\n-- test_utils.py test_return_characters_2")
w("example : returnCharacters [0x1B, 0x1B, 0x0E] = .ok [0x1B, 0x0E] := by decide +kernel")
w("\n-- test_utils.py test_bytes_to_datetime, test_bytes_to_datetime2, test_datetime_to_bytes")
w("example : bytesToDatetime [0x10, 0x33, 0x12, 0x30, 0x05, 0x06] = .ok (⟨2006, 5, 30, 12, 33, 10, 0⟩, false, false) := by decide +kernel")
w("example : bytesToDatetime [0x00, 0x49, 0x53, 0x14, 0x02, 0x22] = .ok (⟨2022, 2, 14, 13, 49, 0, 0⟩, false, true) := by decide +kernel")
w("example : datetimeToBytes ⟨2006, 5, 30, 12, 33, 10, 0⟩ = .ok [0x10, 0x33, 0x12, 0x30, 0x05, 0x06] := by decide +kernel")
w("\n-- test_utils.py test_pretty_text")
w('example : prettyText "MJ/m3\\x003\\x00".toList.asBytes = "MJ/m3 3".toList := by decide +kernel'.replace('"MJ/m3\\x003\\x00".toList.asBytes', lit(b"MJ/m3\x003\x00")))
# ---- test_security
sec = tree("test_security.py")
lists = [[c.value for c in n.elts] for n in ast.walk(func(sec, "test_security_cbc")) if isinstance(n, ast.List)]
data, padh, pad, ct = lists
key = b"\x33" * 16
w("\n-- test_security.py test_security_cbc: CRC, AES-128-CBC of the padded data, decryption of the device's message")
w(f"example : calculateCrc {fold(padh[:-2])} = 0x46A3 := by decide +kernel")
w(f"example : aesCbcDecrypt aes128\n  {fold(ct)}\n  {lit(key)}\n  {lit(key)} = .ok\n  {fold(pad)} := by decide +kernel")
w(f"example : (⟨3, {lit(key)}⟩ : CipherContext).decrypt aes128\n  {fold(bytes(padh[:3]) + bytes(ct))} = .ok\n  {fold(data)} := by decide +kernel")
# ---- test_frames
fr = byteslits(func(tree("test_frames.py"), "test_failing_lrc"))[0]
w("\n-- test_frames.py test_failing_lrc")
w(f"example : ∃ raw f, returnCharacters\n  {fold(fr)} = .ok raw ∧ frameFromBytes encryptedResponseType raw = .ok f ∧\n  f.service = .readArchivesByDate := ⟨_, _, rfl, rfl, rfl⟩" if False else
  f"def failingLrc : Bytes :=\n  {fold(fr)}")
w("example : ((returnCharacters failingLrc).bind (frameFromBytes encryptedResponseType)).map (fun f =>\n    (f.da1, f.sa1, f.data.take 3)) = .ok (0, 1, [0x75, 0x03, 0x03]) := by decide +kernel")
# ---- test_application
app = tree("test_application.py")
rt = bytes.fromhex(strs(func(app, "test_read_time_response"))[0])
w("\n-- test_application.py test_read_time_response (no expected values there; those of test_utils are used)")
w(f"example : ((responseFactory\n  {fold(rt)}).bind (fun x => ReadTimeResponse.fromBytes x.2.data)).map (·.time) =\n  .ok ⟨2006, 5, 30, 12, 33, 10, 0⟩ := by decide +kernel")
for fn in ["test_parse_parameter_data_object_1", "test_parse_parameter_data_object_0"]:
    b = byteslits(func(app, fn))[0]
    w(f"\n-- test_application.py {fn}")
    n = int.from_bytes(b[0:2], "little"); a = int.from_bytes(b[2:4], "little")
    w(f"example : (ReadDeviceParametersResponse.fromBytes\n  {fold(b)}).map\n    (fun p => (p.objectNumber, p.objectAmount, p.isEnd, p.data.length)) = .ok ({n}, {a}, {'true' if b[4] else 'false'}, {len(b)-5}) := by decide +kernel")
b = byteslits(func(app, "test_read_archive"))[0]
w("\n-- test_application.py test_read_archive")
w(f"example : ∃ r, ReadArchiveByTimeResponse.fromBytes\n  {fold(b)} = .ok r := ⟨_, rfl⟩")
w("\n-- test_application.py test_write_time: the frame in the comment of the test")
wf = bytes.fromhex("02fe84712000000000000000313233343536210359733634131404240405f5030d")
body = wf[12:-4]
w(f"example : requestToBytes requestType ⟨.writeDeviceTime, 0, 0, 0, 0, {lit(body)}⟩ = .ok\n  {fold(wf)} := by decide +kernel")
w("example : datetimeToBytes ⟨2024, 4, 14, 13, 34, 36, 0⟩ = .ok " + lit(bytes.fromhex("363413140424")) + " := by decide +kernel")
# ---- test_call_to_dispatch
call = tree("test_call_to_dispatch.py")
bl = [n.value.value for n in call.body if isinstance(n, ast.Assign) and isinstance(n.value, ast.Constant)]
assert len(bl) == 2
w("\n-- test_call_to_dispatch.py")
w(f"def callWire : Bytes :=\n  {fold(bl[0])}")
w(f"def callRaw : Bytes :=\n  {fold(bl[1])}")
w("example : (returnCharacters callWire).map List.length = .ok (0x9C + 1) := by decide +kernel")
w("example : returnCharacters callWire = .ok callRaw := by decide +kernel")
w("""/-- The call of the test. -/
def theCall : Res CallRequest := (frameFromBytes requestType callRaw).bind (fun f => CallRequest.fromBytes f.data)
example : (frameFromBytes requestType callRaw).map (·.service) = .ok .call := by decide +kernel
example : theCall.map (fun c => (c.stationId, c.simCardId, c.modemId, c.protocol)) =
    .ok ("0000000000000001".toList, "23820870106343780000".toList, "359077320670651".toList, .elgas2) := by decide +kernel
example : theCall.map (fun c => (c.address1, c.address2, c.signalStrength, c.connections)) = .ok (1, 0, 31, 6) := by decide +kernel
example : theCall.map (fun c => (c.lastConnectionTime, c.lastConnectionErrorTime, c.lastResetTime, c.lastModemErrorTime)) =
    .ok (⟨2024, 2, 16, 14, 20, 14, 0⟩, ⟨2000, 1, 1, 0, 0, 0, 0⟩, ⟨2023, 10, 4, 7, 2, 41, 0⟩, ⟨2024, 2, 16, 14, 13, 49, 0⟩) := by
  decide +kernel
example : theCall.map (fun c => (c.connectionErrors, c.resets, c.tcpData, c.allData)) = .ok (0, 1, 152, 0) := by decide +kernel
example : theCall.map (fun c => (c.serialNumber, c.ipAddress)) = .ok ("2358001708".toList, "10.71.74.75".toList) := by decide +kernel
example : theCall.map (fun c => (c.lastModemError, c.modemBatteryCapacity, c.modemBatteryVoltage, c.firmwareVersion)) =
    .ok (1, 65146, 461, "01.000".toList) := by decide +kernel""")
# ---- test_parser and the objects of test_schema.test_all
pb = byteslits(func(tree("test_parser.py"), "test_parser"))[0]
recs, i = [], 0
while i < len(pb):
    n = int.from_bytes(pb[i:i+2], "little"); recs.append((pb[i+2], pb[i+3:i+n])); i += n
assert i == len(pb) and len(recs) == 26
w("\n-- test_parser.py test_parser: 26 objects\n")
for k, (t, b) in enumerate(recs):
    w(f"def body{k} : Bytes :=\n  {fold(b)}")
w("\n/-- The records of the test data. -/\ndef records : List (UInt8 × Bytes) :=\n  [" + ", ".join(f"({t}, body{k})" for k, (t, _) in enumerate(recs)) + "]")
w(f"""
/-- The test data. -/
def parserData : Bytes :=
  {fold(pb)}

example : parserData = records.flatMap record := by decide +kernel
example : (parseParameters none (some parserData)).map (fun l => (l.length, l.map (·.cls))) =
    .ok (26, CLSLIST) := by
  rw [show parserData = records.flatMap record by decide +kernel, C56_split records (by decide) (by decide +kernel)]
  decide +kernel
""")
# expected objects
sch = func(tree("test_schema.py"), "test_all")
lst = next(n for n in ast.walk(sch) if isinstance(n, ast.Assign) and isinstance(n.value, ast.List)).value
objs = [c for c in lst.elts if isinstance(c, ast.Call)]
names = [c.func.id for c in objs]
o[-1] = o[-1].replace("CLSLIST", "[" + ", ".join("." + n for n in names) + "]")
w('''/-- Comparison with a Python literal: floats by their bits (values produced by `round` are skipped). -/
inductive Lit
  | int (n : Nat) | bool (b : Bool) | str (s : PyStr) | none | strs (l : List PyStr)
  | float (single double : Nat)

def agrees : Val → Lit → Bool
  | .int n, .int m => n == m
  | .bool a, .bool b => a == b
  | .str a, .str b => a == b
  | .none, .none => true
  | .strs a, .strs b => a == b
  | .float (.single b), .float s _ => b == s
  | .float (.double b), .float _ d => b == d
  | .float (.rounded _ _), .float _ _ => true
  | _, _ => false

def agreesAll (o : PObj) (l : List (Attr × Lit)) : Bool :=
  l.all fun (a, x) => match a, o.attrs.lookup a, x with
    | .name, some (.str n), .str m => m.isPrefixOf n
    | _, some v, x => agrees v x
    | _, none, _ => false
''')
diffs = []
def leanlit(v):
    if isinstance(v, ast.UnaryOp): x = -v.operand.value
    elif isinstance(v, ast.Constant): x = v.value
    elif isinstance(v, ast.List): return ".strs [" + ", ".join(s(e.value) for e in v.elts) + "]"
    else: return None
    if x is None: return ".none"
    if isinstance(x, bool): return ".bool " + str(x).lower()
    if isinstance(x, int): return f".int {x}"
    if isinstance(x, str): return ".str " + s(x)
    if isinstance(x, float): return ".float 0x%x 0x%x" % (struct.unpack("<I", struct.pack("<f", x))[0], struct.unpack("<Q", struct.pack("<d", x))[0])
# attributes whose value in test_schema.py comes from another reading of the device than test_parser.py
# (names are compared up to the garbage that follows the NUL in the device's buffer)
SKIP = {(0, "parameter_crc"), (0, "optical_port_speed"), (0, "optical_port_bit_control"), (1, "decimals"), (2, "decimals"),
        (5, "decimals"), (6, "decimals"), (13, "serial_number_of_gas_meter"),
        (25, "ip_address_for_registration_and_diagnostics"), (25, "ip_address_for_calling_to_dispatching"), (25, "ip_address_for_ping")}
w("-- test_schema.py test_all: the objects listed there are what the model parses from the data of test_parser.py")
for k, c in enumerate(objs):
    items = []
    for kw in c.keywords:
        if (k, kw.arg) in SKIP: continue
        l = leanlit(kw.value)
        if l is None: continue
        items.append(f"(.{kw.arg}, {l})")
    w(f"example : ((ObjType.ofByte {recs[k][0]}).bind (fun t => parameterFromBytes t body{k})).map (fun o => (o.cls, agreesAll o\n    [" + ",\n     ".join(items) + f"])) = .ok (.{names[k]}, true) := by decide +kernel")
w("\n-- test_parameters.py: the objects parsed there are accepted")
par = tree("test_parameters.py")
import re
for fn in [n for n in par.body if isinstance(n, ast.FunctionDef) and re.search(r"type_(\d+)$", n.name)]:
    ty = int(re.search(r"type_(\d+)$", fn.name).group(1))
    env = {}
    for n in ast.walk(fn):
        if isinstance(n, ast.Assign) and isinstance(n.value, ast.Call) and getattr(n.value.func, "id", "") == "bytearray":
            env[n.targets[0].id] = n.value.args[0].value
    calls = [n for n in ast.walk(fn) if isinstance(n, ast.Call) and getattr(n.func, "attr", "") == "from_bytes"]
    assert len(calls) == 1
    cls = calls[0].func.value.attr
    w(f"-- {fn.name}")
    w(f"example : ((ObjType.ofByte {ty}).bind (fun t => parameterFromBytes t\n  {fold(env[calls[0].args[0].id])})).map (·.cls) = .ok .{cls} := by decide +kernel")
p0 = byteslits(func(par, "test_parameter_0"))[0]
w("-- test_parameter_0")
w(f"example : fromLE {lit(p0[:2])} = 270 := by decide +kernel")
w(f"example : (parameterFromBytes .SYSTEM_PARAMETER\n  {fold(p0[3:270])}).map (·.cls) = .ok .SystemParameters := by decide +kernel")
w("\nend Elgas.Conformance")
open("/verif/lean/Verif/Conformance.lean", "w").write("\n".join(o) + "\n")
