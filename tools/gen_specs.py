#!/usr/bin/env python3
"""Translates the XML specifications of /repo/spec into the Lean tables under
lean/Verif/Data.  Run: python3 tools/gen_specs.py"""
import math, re, struct, sys
import xml.etree.ElementTree as ET

SPEC = '/repo/spec/'
OUT = '/verif/lean/Verif/Data/'

# ---------------------------------------------------------------- helpers

def tag(e): return e.tag.split('}')[-1]

def expected_type(c):
    for a, b, t in [(0,9,'str'),(10,59,'f64'),(60,79,'i16'),(90,99,'i32'),(100,102,'str'),
                    (105,105,'str'),(110,149,'f64'),(160,169,'i64'),(170,179,'i16'),
                    (210,239,'f64'),(270,289,'i16'),(290,299,'bool'),(300,309,'str'),
                    (310,319,'bytes'),(320,369,'str'),(370,389,'i16'),(390,399,'str'),
                    (400,409,'i16'),(410,419,'str'),(420,429,'i32'),(430,439,'str'),
                    (440,459,'i32'),(460,469,'f64'),(470,481,'str'),(999,1009,'str'),
                    (1010,1059,'f64'),(1060,1070,'i16'),(1071,1071,'i32')]:
        if a <= c <= b: return t
    raise Exception('code %d' % c)

def f64(x):
    return '(⟨0x%s#64⟩ : F64)' % struct.pack('>d', float(x)).hex()

def lean_char(c):
    if c == "'": return "'\\''"
    if c == '\\': return "'\\\\'"
    return "'%s'" % c

def lean_str(s):
    if s == '': return '([] : Str)'
    return '(str!"%s" : Str)' % s.replace('\\', '\\\\').replace('"', '\\"')

# ---------------------------------------------------------------- enums

def strip_comments(s): return re.sub(r'//[^\n]*', '', s)

def parse_enums():
    s = strip_comments(open('/repo/src/enums.rs').read())
    out = {}
    for m in re.finditer(r'pub enum (\w+)\s*\{([^}]*)\}', s):
        vals = []; nxt = 0
        for v in m.group(2).split(','):
            v = v.strip()
            v = re.sub(r'#\[[^\]]*\]', '', v).strip()
            if not v: continue
            mm = re.match(r'^(\w+)\s*(?:=\s*(-?\w+))?$', v)
            if not mm: raise Exception('enum %s: %r' % (m.group(1), v))
            n = int(mm.group(2), 0) if mm.group(2) else nxt
            vals.append((mm.group(1), n)); nxt = n + 1
        out[m.group(1)] = vals
    return out

ENUMS = parse_enums()
ENUM_LINE = {}
for ln, line in enumerate(open('/repo/src/enums.rs'), 1):
    m = re.match(r'\s*pub enum (\w+)', line)
    if m: ENUM_LINE[m.group(1)] = ln
USED_ENUMS = set()

def en(name):
    USED_ENUMS.add(name)
    return 'E.' + name[0].lower() + name[1:]

def enum_fin(name, variant):
    k = [v for v, _ in ENUMS[name]].index(variant)
    return '(⟨%d, by decide⟩ : Fin (List.length %s))' % (k, en(name))

# ---------------------------------------------------------------- types and defaults

BASE = {'bool': 'bool', 'i16': 'i16', 'i32': 'i32', 'i64': 'i64', 'u32': 'i32', 'f64': 'f64',
        'String': 'str', 'Handle': 'handle', 'Vec<u8>': 'bytes', 'char': 'chr', 'Point': 'point',
        'Vector': 'point', 'Color': 'i16', 'LineWeight': 'i16', 'ViewMode': 'i32',
        'AcadVersion': 'version', 'DateTime<Local>': 'date', 'DateTime<Utc>': 'date',
        'Duration': 'dur', 'Uuid': 'uuid'}

def ty(rust, mult=False):
    if mult: return '.list %s' % par(ty(rust))
    if rust in BASE: return '.' + BASE[rust]
    if rust in ENUMS: return '.enum ' + en(rust)
    raise Exception('type ' + rust)

def par(s): return '(%s)' % s if ' ' in s else s

DEN = {'bool': 'Bool', 'i16': 'I16', 'i32': 'I32', 'i64': 'I64', 'f64': 'F64', 'str': 'Str',
       'handle': 'Handle', 'bytes': 'List Byte', 'chr': 'Char', 'point': 'Point',
       'version': 'Version', 'date': 'Date', 'dur': 'Dur', 'uuid': 'Uuid'}

def den(rust):
    if rust in BASE: return DEN[BASE[rust]]
    if rust in ENUMS: return 'Fin (List.length %s)' % en(rust)
    raise Exception(rust)

def point(x, y, z): return '(⟨%s, %s, %s⟩ : Point)' % tuple(f64(v) for v in (x, y, z))

def default(rust, d, mult=False):
    """Lean term for a Rust default value."""
    d = d.strip()
    if mult:
        assert d in ('vec![]', 'Vec::new()', ''), d
        return '([] : List (%s))' % den(rust)
    if rust == 'bool': return '(%s : Bool)' % d
    if rust in ('i16', 'i32', 'i64', 'u32'):
        w = {'i16': 16, 'i32': 32, 'i64': 64, 'u32': 32}[rust]
        m = re.match(r"^'(.)' as i32$", d)
        n = ord(m.group(1)) if m else int(d.replace('_', ''), 0)
        if n < 0: return '(BitVec.ofInt %d (%d) : BitVec %d)' % (w, n, w)
        return '(%d#%d : BitVec %d)' % (n, w, w)
    if rust == 'f64': return f64(eval_f64(d))
    if rust == 'String':
        m = re.match(r'^String::from\("(.*)"\)$', d)
        if m: return lean_str(m.group(1))
        assert d == 'String::new()', d
        return lean_str('')
    if rust == 'Handle':
        if d == 'Handle(1)': return '(1#64 : Handle)'
        assert d == 'Handle::empty()', d
        return '(0#64 : Handle)'
    if rust == 'Vec<u8>':
        assert d == 'vec![]', d
        return '([] : List Byte)'
    if rust == 'char':
        m = re.match(r"^'(.)'$", d); assert m, d
        return '(%s : Char)' % lean_char(m.group(1))
    if rust in ('Point', 'Vector'):
        if d in ('Point::origin()', 'Vector::zero()'): return point(0, 0, 0)
        if d == 'Vector::x_axis()': return point(1, 0, 0)
        if d == 'Vector::y_axis()': return point(0, 1, 0)
        if d == 'Vector::z_axis()': return point(0, 0, 1)
        m = re.match(r'^(?:Point|Vector)::new\((.*)\)$', d); assert m, d
        return point(*[eval_f64(v) for v in m.group(1).split(',')])
    if rust == 'Color':
        if d == 'Color::by_layer()': return '(256#16 : I16)'
        if d == 'Color::by_block()': return '(0#16 : I16)'
        if d == 'Color::by_entity()': return '(257#16 : I16)'
        m = re.match(r'^Color::from_(?:index|raw_value)\((\d+)\)$', d); assert m, d
        return '(%s#16 : I16)' % m.group(1)
    if rust == 'LineWeight':
        if d == 'LineWeight::default()': return '(0#16 : I16)'
        if d == 'LineWeight::by_block()': return '(BitVec.ofInt 16 (-1) : I16)'
        if d == 'LineWeight::by_layer()': return '(BitVec.ofInt 16 (-2) : I16)'
        raise Exception(d)
    if rust == 'ViewMode':
        assert d == 'ViewMode::default()', d
        return '(0#32 : I32)'
    if rust == 'AcadVersion':
        m = re.match(r'^AcadVersion::(\w+)$', d); assert m, d
        return '(.%s : Version)' % VERSIONS[m.group(1)]
    if rust in ('DateTime<Local>', 'DateTime<Utc>'):
        assert d in ('Local::now()', 'Utc::now()'), d
        return '(0 : Date)'
    if rust == 'Duration':
        assert d == 'Duration::default()', d
        return '(⟨0#64, 0⟩ : Dur)'
    if rust == 'Uuid':
        assert d in ('Uuid::new_v4()', 'Uuid::nil()'), d
        return '(0#128 : Uuid)'
    if rust in ENUMS:
        m = re.match(r'^%s::(\w+)$' % rust, d); assert m, (rust, d)
        return enum_fin(rust, m.group(1))
    raise Exception('default %s %s' % (rust, d))

def eval_f64(d):
    d = d.strip()
    m = re.match(r'^(?:::)?std::f64::consts::PI(?: ([*/]) ([0-9.]+))?$', d)
    if m: return math.pi if not m.group(1) else math.pi * float(m.group(2)) if m.group(1) == '*' else math.pi / float(m.group(2))
    m = re.match(r'^-?[0-9_.]+(?:e-?\d+)?$', d)
    assert m, d
    return float(d.replace('_', ''))

def dflt_ok(*a):
    try: return default(*a)
    except AssertionError as e: raise Exception(str(e))

# ---------------------------------------------------------------- converters

def rconv(rust, R, code, is_ptr=False, override=''):
    t = expected_type(code)
    if is_ptr or override == 'pair.as_handle()?': return '.handle'
    assert override == '', override
    m = re.match(r'^enum_from_number!\((\w+), (\w+), from_(i16|i32|f64), \{\}\)$', R)
    if m:
        assert t == m.group(3) and m.group(1) == rust, (rust, R, code)
        return '(.enum%s %s ⟨%d, by decide⟩)' % (t.upper(), en(rust), [v for v, _ in ENUMS[rust]].index(m.group(2)))
    if R == 'clipping_from_bool({})' and t == 'bool':
        return '(.enumBool %s ⟨0, by decide⟩)' % en(rust)
    if R == 'AcadVersion::from_safe({})' and t == 'str': return '.version'
    if R in ('as_datetime_local({})', 'as_datetime_utc({})') and t == 'f64': return '.date'
    if R == 'as_duration({})' and t == 'f64': return '.dur'
    if R == 'as_uuid({})' and t == 'str': return '.uuid'
    if rust == 'i16' and R == '{} as i16' and t == 'i32': return '.i16OfI32'
    if rust == 'f64' and R == 'f64::from({})' and t in ('i16', 'i32'): return '.f64Of' + t.upper()
    if rust == 'i32' and R == '{} as i32' and t == 'f64': return '.i32OfF64'
    if R in ('', '{}'):
        b = BASE.get(rust)
        assert b == t, (rust, R, code, t)
        return '.' + b
    if R == 'as_bool({})' and t == 'i16': return '.asBool'
    if R == '!as_bool({})' and t == 'i16': return '.notBool'
    if R in ('Color::from_raw_value({})', 'LineWeight::from_raw_value({})') and t == 'i16': return '.i16'
    if R in ('i32::from({})', '{} as i32', 'ViewMode::from_i16({})') and t == 'i16': return '.i32OfI16'
    if R == '{} as u32' and t == 'i32': return '.i32'
    if R == '{} as u8 as char' and t == 'i16': return '.chr'
    raise Exception('rconv %s %s %s' % (rust, R, code))

def wconv(rust, W, code, is_ptr=False):
    t = expected_type(code)
    if is_ptr: return '.handle'
    if W in ('', '{}', '&{}'):
        b = BASE.get(rust)
        if rust == 'Handle': return '.handle'
        assert b == t, (rust, W, code, t)
        return '.' + b
    if W == 'as_i16({})' and rust == 'bool' and t == 'i16': return '.asI16'
    if W == 'as_i16(!{})' and rust == 'bool' and t == 'i16': return '.notI16'
    if W in ('{}.raw_value()', 'Color::raw_value(&{})', 'LineWeight::raw_value(&{})') and t == 'i16': return '.i16'
    if W == '{} as i16' and t == 'i16':
        if rust in ENUMS: return '(.enumI16 %s)' % en(rust)
        if rust == 'i32': return '.i32AsI16'
        if rust == 'char': return '.chr'
        if rust == 'i16': return '.i16'
        if rust == 'f64': return '.f64AsI16'
    if W == '{} as i32' and t == 'i32':
        if rust in ENUMS: return '(.enumI32 %s)' % en(rust)
        if rust == 'f64': return '.f64AsI32'
    if W == 'f64::from({} as i32)' and t == 'f64' and rust in ENUMS: return '(.enumF64 %s)' % en(rust)
    if W in ('{} as f64', 'f64::from({})') and t == 'f64' and rust == 'i32': return '.i32AsF64'
    if W == 'bool_from_clipping({})' and t == 'bool': return '(.enumBool %s)' % en(rust)
    if W == '&{}.to_string()' and rust == 'AcadVersion': return '.version'
    if W in ('as_double_local({})', 'as_double_utc({})') and t == 'f64': return '.date'
    if W == 'duration_as_double({})' and t == 'f64': return '.dur'
    if W == '&uuid_string(&{})' and t == 'str': return '.uuid'
    if W == '{}.raw() as i16' and t == 'i16': return '.i32AsI16'
    if W == '{} as i32' and rust == 'u32' and t == 'i32': return '.i32'
    if W == '&{}.as_string()' and rust == 'Handle': return '.handle'
    raise Exception('wconv %s %s %s' % (rust, W, code))

VERSIONS = {v: v.lower().replace('version_', 'v') for v, _ in ENUMS['AcadVersion']}
def ver(v): return '(some .%s)' % VERSIONS[v]

AXES = ['x', 'y', 'z']

class Field:
    """A struct field; the first declaration of a name counts."""
    def __init__(self, idx, name, rust, mult, dflt):
        self.idx, self.name, self.rust, self.mult, self.dflt = idx, name, rust, mult, dflt

def codes(e):
    if e.get('CodeOverrides'): return [int(c) for c in e.get('CodeOverrides').split(',')]
    return [int(e.get('Code'))]

def fname(e): return '__%s_handle' % e.get('Name') if tag(e) == 'Pointer' else e.get('Name')

def gate(mn, mx, cond=None):
    s = ''
    if mn: s += ', min := ' + ver(mn)
    if mx: s += ', max := ' + ver(mx)
    if cond: s += ', cond := ' + cond
    return s

HEAD = """import Verif.Model.Record
import Verif.Data.Enums

/-! Generated from %s by tools/gen_specs.py; do not edit. -/

set_option maxRecDepth 4000

namespace Dxf
"""

# ---------------------------------------------------------------- tables

def gen_tables():
    root = ET.parse(SPEC + 'TableSpec.xml').getroot()
    out = [HEAD % 'spec/TableSpec.xml']
    info = []
    for table in root:
        item = list(table)[0]
        n = item.get('Name'); ns = n[0].lower() + n[1:]
        fields = {'name': Field(0, 'name', 'String', False, 'String::new()'),
                  'handle': Field(1, 'handle', 'Handle', False, 'Handle::empty()'),
                  '__owner_handle': Field(2, '__owner_handle', 'Handle', False, 'Handle::empty()')}
        for f in item:
            fn = fname(f)
            if fn in fields: continue
            mult = f.get('AllowMultiples') == 'true'
            if tag(f) == 'Pointer':
                fields[fn] = Field(len(fields), fn, 'Handle', mult, 'vec![]' if mult else 'Handle::empty()')
            else:
                fields[fn] = Field(len(fields), fn, f.get('Type'), mult, f.get('DefaultValue'))
        D = 'Tables.%sDecls' % ns
        out.append('/-- Fields of `%s`. -/' % n)
        out.append('def %s : List Decl := [' % D)
        L = []
        for f in fields.values():
            L.append('  /- %d %s -/ ⟨%s, %s⟩' % (f.idx, f.name, ty(f.rust, f.mult), default(f.rust, f.dflt, f.mult)))
        out.append(',\n'.join(L) + ']\n')
        # arms
        A = ['⟨2, .on 0 (.set .str)⟩', '⟨5, .on 1 (.set .handle)⟩', '⟨330, .on 2 (.set .handle)⟩']
        for f in item:
            if f.get('GenerateReader') == 'false': continue
            fd = fields[fname(f)]; ptr = tag(f) == 'Pointer'
            cs = codes(f)
            for k, c in enumerate(cs):
                if len(cs) > 1:
                    assert fd.rust in ('Point', 'Vector') and expected_type(c) == 'f64'
                    A.append('⟨%d, .on %d (.axis .%s)⟩' % (c, fd.idx, AXES[k]))
                elif (f.get('ReadConverter') or '').startswith('read_color_value'):
                    A.append('⟨%d, readLayerColor %d %d⟩' % (c, fd.idx, fields['is_layer_on'].idx))
                else:
                    rc = rconv('Handle' if ptr else f.get('Type'), f.get('ReadConverter') or '', c, ptr, f.get('ReaderOverride') or '')
                    A.append('⟨%d, .on %d (.%s %s)⟩' % (c, fd.idx, 'push' if fd.mult else 'set', rc))
        if n == 'Layer':
            ci, oi = fields['color'].idx, fields['is_layer_on'].idx
            A = [a.replace('readLayerColor %d %d' % (ci, oi), 'Tables.readLayerColor') for a in A]
            out.append("""/-- Models the arm `62 => item.color = read_color_value(&mut item, pair.assert_i16()?)`,
src/helper_functions.rs:289-292; `color.abs()` panics in debug builds for -32768. -/
def Tables.readLayerColor : Act %s := .custom [%d, %d] fun r p =>
  match p.assertI16 with
  | .error e => .error e
  | .ok v =>
    match readColor v with
    | none => .error .panic
    | some (on, c) => .ok ((r.set %d (on : Bool)).set %d (c.raw : I16))

/-- Models `item.color.writable_color_value(item)`, src/color.rs:79-86.  For the raw value
-32768 debug builds panic and release builds wrap (C31); the model wraps. -/
def Tables.layerColorValue (r : Rec %s) : I16 :=
  let raw : I16 := r %d
  let v := if raw.toInt < 0 then -raw else raw
  bif r %d then v else -v
""" % (D, ci, oi, oi, ci, D, ci, oi))
        out.append('/-- Match arms of the reader of `%s`. -/' % n)
        out.append('def Tables.%sArms : List (Arm %s) := [' % (ns, D))
        out.append(',\n'.join('  ' + a for a in A) + ']\n')
        # commands
        C = []
        for f in item:
            if f.get('GenerateWriter') == 'false': continue
            fd = fields[fname(f)]; ptr = tag(f) == 'Pointer'
            cs = codes(f); cond = None
            wc = f.get('WriteCondition')
            if wc:
                m = re.match(r'^item\.(\w+)$', wc)
                if m: cond = 'fun r => r %d' % fields[m.group(1)].idx
                elif wc == 'item.ambient_color.raw_value() != 7': cond = 'fun r => (fun x : I16 => decide (x ≠ 7#16)) (r %d)' % fields['ambient_color'].idx
                elif wc == 'item.ambient_color_i32 != 0': cond = 'fun r => (fun x : I32 => decide (x ≠ 0#32)) (r %d)' % fields['ambient_color_i32'].idx
                elif wc == 'item.ambient_color_name != "BLACK"': cond = 'fun r => (fun x : Str => decide (x ≠ str!"BLACK")) (r %d)' % fields['ambient_color_name'].idx
                else: raise Exception(wc)
            assert not f.get('DisableWritingDefault')
            g = gate(f.get('MinVersion'), f.get('MaxVersion'), cond)
            if len(cs) > 1:
                w = '.field %d (.axes [%s])' % (fd.idx, ', '.join('(.%s, %d)' % (AXES[k], c) for k, c in enumerate(cs)))
            elif (f.get('WriteConverter') or '').find('writable_color_value') >= 0:
                w = '.computed (t := .i16) %d .i16 Tables.layerColorValue' % cs[0]
            elif fd.mult:
                w = '.field %d (.many %d %s)' % (fd.idx, cs[0], wconv(fd.rust, '', cs[0], ptr))
            else:
                w = '.field %d (.one %d %s)' % (fd.idx, cs[0], wconv(fd.rust, f.get('WriteConverter') or '', cs[0], ptr))
            C.append('{ cmd := %s%s }' % (w, g))
        out.append('/-- The statement for the handle of `%s` (build/table_generator.rs:386-389). -/' % n)
        out.append('def Tables.%sHead (writeHandles : Bool) : List (GCmd %s) :=' % (ns, D))
        out.append('  [{ cmd := .field 1 (.one 5 .handle), cond := fun _ => writeHandles }]\n')
        C = ['{ cmd := .const (.newStr 100 str!"AcDbSymbolTableRecord") }',
             '{ cmd := .const (.newStr 100 str!"%s") }' % item.get('ClassName'),
             '{ cmd := .field 0 (.one 2 .str) }',
             '{ cmd := .const (.newI16 70 0#16) }'] + C
        out.append('/-- Write statements of `%s` (build/table_generator.rs:397-). -/' % n)
        out.append('def Tables.%sCmds : List (GCmd %s) := [' % (ns, D))
        out.append(',\n'.join('  ' + a for a in C) + ']\n')
        info.append((n, ns, table.get('TypeString'), item.get('ClassName'), table.get('MinVersion')))
    out.append('end Dxf')
    open(OUT + 'Tables.lean', 'w').write('\n'.join(out) + '\n')
    return info

# ---------------------------------------------------------------- header

def gen_header():
    root = ET.parse(SPEC + 'HeaderVariablesSpec.xml').getroot()
    head = (HEAD % 'spec/HeaderVariablesSpec.xml').replace('import Verif.Model.Record', 'import Verif.Model.Header')
    out = [head]
    fields = {}; first = {}
    for v in root:
        f = v.get('Field')
        if f in fields: continue
        fields[f] = Field(len(fields), f, v.get('Type'), False, v.get('DefaultValue'))
        first[f] = v
    out.append("""/-- Fields of `Header`.  The defaults of the dates (the time of the call) and of the two
random UUIDs are placeholders; see `Header.Fresh`. -/""")
    out.append('def Header.decls : List Decl := [')
    out.append(',\n'.join('  /- %d %s -/ ⟨%s, %s⟩' % (f.idx, f.name, ty(f.rust), default(f.rust, f.dflt)) for f in fields.values()) + ']\n')
    nd = [f.idx for f in fields.values() if f.dflt in ('Local::now()', 'Utc::now()', 'Uuid::new_v4()')]
    out.append('/-- The fields whose default value depends on the time of the call or on chance. -/')
    out.append('def Header.nondet : List Nat := %s\n' % nd)
    V = []
    for f, v in first.items():
        same = [w for w in root if w.get('Name') == v.get('Name')]
        code = int(v.get('Code'))
        if len(same) == 1 and code < 0:
            arms = ['⟨%d, .on %d (.axis .%s)⟩' % (10 * (k + 1), fields[f].idx, AXES[k]) for k in range(3)]
            kind = 'false'
        else:
            arms = []
            for w in same:
                fd = fields[w.get('Field')]
                arms.append('⟨%s, .on %d (.set %s)⟩' % (w.get('Code'), fd.idx, rconv(w.get('Type'), w.get('ReadConverter') or '', int(w.get('Code')), False, w.get('ReaderOverride') or '')))
            kind = 'true' if len(same) == 1 else 'false'
        V.append('⟨str!"$%s", %s, [%s]⟩' % (v.get('Name'), kind, ', '.join(arms)))
    names = [v.get('Name') for v in first.values()]
    assert len(set(names)) == len(names)
    out.append('/-- The arms of `set_header_value`. -/')
    out.append('def Header.vars : List (HVar Header.decls) := [')
    out.append(',\n'.join('  ' + a for a in V) + ']\n')
    C = []
    for v in root:
        if v.get('SuppressWriting') == 'true': continue
        fd = fields[v.get('Field')]; code = int(v.get('Code'))
        cond = None
        if v.get('DontWriteDefault') == 'true':
            cond = 'fun r => !(Ty.rustEq .%s (r %d) %s)' % (BASE[fd.rust], fd.idx, default(v.get('Type'), v.get('DefaultValue')))
        if code > 0: w = '.one %d %s' % (code, wconv(v.get('Type'), v.get('WriteConverter') or '', code))
        else: w = '.axes [%s]' % ', '.join('(.%s, %d)' % (AXES[k], 10 * (k + 1)) for k in range(-code))
        C.append('⟨str!"$%s", { cmd := .field %d (%s)%s }⟩' % (v.get('Name'), fd.idx, w, gate(v.get('MinVersion'), v.get('MaxVersion'), cond)))
    out.append('/-- The statements of `add_code_pairs_internal`. -/')
    out.append('def Header.cmds : List (HCmd Header.decls) := [')
    out.append(',\n'.join('  ' + a for a in C) + ']\n')
    out.append('end Dxf')
    open(OUT + 'Header.lean', 'w').write('\n'.join(out) + '\n')

# ---------------------------------------------------------------- entities

def lcamel(n): return n[0].lower() + n[1:]

def esc_name(n):
    return n

class Struct:
    """The record that models a generated struct."""
    def __init__(self, base):
        self.fields = {}       # struct field name -> Field
        self.order = []        # Lean declarations in index order: (name, ty, default)
        self.base = base
    def add(self, name, lty, ldflt, rust, mult, dflt):
        if name in self.fields: return
        i = self.base + len(self.order)
        self.fields[name] = Field(i, name, rust, mult, dflt)
        self.order.append((name, lty, ldflt))
    def alias(self, name, target):
        self.fields[name] = self.fields[target]
    def __getitem__(self, n): return self.fields[n]

COMMON = Struct(0)

# private coordinate vectors and the public vector they are combined into (src/entity.rs:680-776)
def merged(name):
    m = re.match(r'^__(\w+)_([xyz])$', name)
    return (m.group(1), m.group(2)) if m else None

PUBLIC = {'clipping_vertices': 'clipping_vertices', 'vertices': 'vertices', 'segment_direction': 'segment_directions',
          'miter_direction': 'miter_directions', 'back_line_vertices': 'back_line_vertices',
          'control_point': 'control_points', 'fit_point': 'fit_points', 'point': 'points'}

SKIP_FIELDS = {'m_text', '__seqend_handle', '__attributes_and_handles', '__vertices_and_handles',
               'extension_data_groups', 'x_data'}

def add_fields(st, ent):
    els = [f for f in ent if tag(f) in ('Field', 'Pointer')]
    three = {merged(f.get('Name'))[0] for f in els if tag(f) == 'Field' and merged(f.get('Name')) and merged(f.get('Name'))[1] == 'z'}
    for f in els:
        fn = fname(f)
        if fn in SKIP_FIELDS: continue
        mult = f.get('AllowMultiples') == 'true'
        if tag(f) == 'Pointer':
            st.add(fn, ty('Handle', mult), default('Handle', 'vec![]' if mult else 'Handle::empty()', mult), 'Handle', mult, 'vec![]' if mult else 'Handle::empty()')
            continue
        mg = merged(fn)
        if mg:
            pub = PUBLIC[mg[0]]
            if pub not in st.fields:
                st.add(pub, '.pts %s' % ('true' if mg[0] in three else 'false'), '(⟨[], [], [], []⟩ : PtAcc)', 'PTS', True, 'vec![]')
            st.alias(fn, pub)
            continue
        if fn in st.fields: continue
        if f.get('Type') == 'LwPolylineVertex':
            st.add(fn, '.lw', '([] : List LwVertex)', 'LW', True, 'vec![]')
            continue
        st.add(fn, ty(f.get('Type'), mult), default(f.get('Type'), f.get('DefaultValue'), mult), f.get('Type'), mult, f.get('DefaultValue'))

def field_arms(st, f):
    """The match arms for one field or pointer."""
    out = []
    fd = st[fname(f)]; ptr = tag(f) == 'Pointer'
    cs = codes(f)
    for k, c in enumerate(cs):
        if ptr:
            out.append((c, '.on %d (.%s .handle)' % (fd.idx, 'push' if fd.mult else 'set')))
        elif fd.rust == 'PTS':
            mg = merged(f.get('Name'))
            if not mg: continue
            out.append((c, '.on %d (.pushAxis .%s)' % (fd.idx, mg[1])))
        elif len(cs) > 1:
            assert fd.rust in ('Point', 'Vector') and expected_type(c) == 'f64'
            out.append((c, '.on %d (.axis .%s)' % (fd.idx, AXES[k])))
        else:
            out.append((c, '.on %d (.%s %s)' % (fd.idx, 'push' if fd.mult else 'set',
                rconv(f.get('Type'), f.get('ReadConverter') or '', c, False, f.get('ReaderOverride') or ''))))
    return out

def lty_of(st, fd):
    for n, t, d in st.order:
        if st.fields[n] is fd: return t, d
    raise Exception(fd.name)

def neq(st, fd, dflt=None):
    t, d = lty_of(st, fd)
    return '!(Ty.rustEq %s (r %d) %s)' % (par(t), fd.idx, dflt or d)

def field_cmd(st, f, conds=()):
    """The write statement for one field or pointer."""
    fd = st[fname(f)]; ptr = tag(f) == 'Pointer'
    cs = codes(f)
    conds = list(conds)
    if f.get('DisableWritingDefault') == 'true':
        if fd.rust == 'bool':
            conds.insert(0, ('!' if fd.dflt == 'true' else '') + '(r %d : Bool)' % fd.idx)
        else:
            conds.insert(0, neq(st, fd))
    cond = 'fun r => ' + ' && '.join(conds) if conds else None
    g = gate(f.get('MinVersion'), f.get('MaxVersion'), cond)
    if fd.mult:
        w = '.many %d %s' % (cs[0], wconv(fd.rust, '', cs[0], ptr))
    elif len(cs) > 1:
        assert fd.rust in ('Point', 'Vector')
        w = '.axes [%s]' % ', '.join('(.%s, %d)' % (AXES[k], c) for k, c in enumerate(cs))
    else:
        w = '.one %d %s' % (cs[0], wconv(fd.rust, f.get('WriteConverter') or '', cs[0], ptr))
    return '{ cmd := .field %d (%s)%s }' % (fd.idx, w, g)

def length_of(st, n):
    fd = st[n]
    if fd.rust == 'PTS': return '(fun a : PtAcc => a.pts.length) (r %d)' % fd.idx
    if fd.rust == 'LW': return '(fun a : List LwVertex => a.length) (r %d)' % fd.idx
    return '(fun a : List (%s) => a.length) (r %d)' % (den(fd.rust), fd.idx)

def specific_value(st, e):
    c = int(e.get('Code')); v = e.get('Value'); t = expected_type(c)
    g = gate(e.get('MinVersion'), e.get('MaxVersion'))
    m = re.match(r'^&?String::from\("([^"]*)"\)$', v)
    if m:
        return '{ cmd := .const (.newStr %d str!"%s")%s }' % (c, m.group(1), g)
    m = re.match(r'^ent\.(\w+)\.len\(\) as (i16|i32|f64)$', v)
    if m:
        L = length_of(st, m.group(1))
        assert m.group(2) == t
        if t == 'f64': return '{ cmd := .computed (t := .f64) %d .f64 (fun r => F64.ofInt (%s : Nat))%s }' % (c, L, g)
        return '{ cmd := .computed (t := .i32) %d %s (fun r => BitVec.ofNat 32 (%s))%s }' % (c, '.i32' if t == 'i32' else '.i32AsI16', L, g)
    if v == 'common.elevation':
        assert e.get('DontWriteIfValueIs') == '0.0'
        return '{ cmd := .field 5 (.one 38 .f64), cond := fun r => %s }' % neq(COMMON, COMMON['elevation'])
    if v == 'as_i16(ent.attributes().count() > 0)':
        return '{ cmd := .const (.newI16 66 1#16), cond := fun _ => decide (n = 1) }'
    raise Exception('specific %s' % v)

def foreach(st, e):
    m = re.match(r'^ent\.(\w+)$', e.get('Field')); fd = st[m.group(1)]
    vals = [(c.get('Value'), int(c.get('Code')), c) for c in e]
    if fd.rust == 'PTS':
        three = lty_of(st, fd)[0].endswith('true')
        assert [v for v, _, _ in vals] == ['item.x', 'item.y', 'item.z'][:3 if three else 2]
        z = vals[2][1] if three else vals[1][1]
        return ['{ cmd := .field %d (.points fun | .x => %d | .y => %d | .z => %d) }' % (fd.idx, vals[0][1], vals[1][1], z)]
    if fd.rust == 'LW':
        assert [(v, c) for v, c, _ in vals] == [('item.x', 10), ('item.y', 20), ('item.id', 91), ('item.starting_width', 40), ('item.ending_width', 41), ('item.bulge', 42)]
        return ['{ cmd := .field %d (.lw true), min := %s }' % (fd.idx, ver('R2013')),
                '{ cmd := .field %d (.lw false), max := %s }' % (fd.idx, ver('R2010'))]
    assert fd.rust == 'Vec<u8>' and [(v) for v, _, _ in vals] == ['item.clone()'], vals
    return ['{ cmd := .field %d (.many %d .bytes) }' % (fd.idx, vals[0][1])]

def write_cmds(st, ent):
    wo = [c for c in ent if tag(c) == 'WriteOrder']
    out = []
    if wo:
        byname = {}
        for f in ent:
            if tag(f) in ('Field', 'Pointer'): byname.setdefault(f.get('Name'), f)
        for c in wo[0]:
            t = tag(c)
            if t == 'WriteField':
                assert not c.get('WriteCondition') and not c.get('DontWriteIfValueIs'), c.attrib
                out.append(field_cmd(st, byname[c.get('Field')]))
            elif t == 'WriteSpecificValue': out.append(specific_value(st, c))
            elif t == 'Foreach': out += foreach(st, c)
            else: raise Exception(t)
        return out
    if ent.get('SubclassMarker'):
        out.append('{ cmd := .const (.newStr 100 str!"%s"), min := (some .r13) }' % ent.get('SubclassMarker'))
    for f in ent:
        if tag(f) in ('Field',) and f.get('GenerateWriter') != 'false':
            out.append(field_cmd(st, f))
        elif tag(f) == 'Pointer': raise Exception('pointer in %s' % ent.get('Name'))
    return out

def emit_list(out, doc, sig, items):
    out.append('/-- %s -/' % doc)
    out.append('def %s := [' % sig)
    out.append(',\n'.join('  ' + a for a in items) + ']\n')

def spec_lines(st):
    return ['/- %d %s -/ ⟨%s, %s⟩' % (st.base + k, n, t, d) for k, (n, t, d) in enumerate(st.order)]

XREC = 'AcDbXrecord'

def attribute_arms(st, tagname, is_def):
    i = lambda n: st[n].idx
    def pick(a, b): return 'bif xrec then %s else %s' % (a, b)
    def pt(c, a, fd): return '.on %d (.axis .%s)' % (i(fd), a)
    A = [(100, '.on 999 (.set .ignoreStr)'), (1, '.on %d (.set .str)' % i('value')),
         (2, pick('.on %d (.set .str)' % i('x_record_tag'), '.on %d (.set .str)' % i(tagname)))]
    if is_def: A.append((3, '.on %d (.set .str)' % i('prompt')))
    A.append((7, '.on %d (.set .str)' % i('text_style_name')))
    for k, a in enumerate(AXES):
        A.append((10 + 10 * k, pick('.on %d (.axis .%s)' % (i('alignment_point'), a), '.on %d (.axis .%s)' % (i('location'), a))))
    for k, a in enumerate(AXES):
        A.append((11 + 10 * k, '.on %d (.axis .%s)' % (i('second_alignment_point'), a)))
    A.append((39, '.on %d (.set .f64)' % i('thickness')))
    A.append((40, pick('.on %d (.set .f64)' % i('annotation_scale'), '.on %d (.set .f64)' % i('text_height'))))
    A.append((41, '.on %d (.set .f64)' % i('relative_x_scale_factor')))
    A.append((50, '.on %d (.set .f64)' % i('rotation')))
    A.append((51, '.on %d (.set .f64)' % i('oblique_angle')))
    A.append((70, pick('match n with | 0 => .on %d (.set (.enumI16 %s ⟨%d, by decide⟩)) | 1 => .on %d (.set .asBool) | 2 => .on %d (.set .i32OfI16) | _ => .custom [] (fun _ p => .error (.unexpectedCodePair p))'
        % (i('m_text_flag'), en('MTextFlag'), [v for v, _ in ENUMS['MTextFlag']].index('MultilineAttribute'), i('is_really_locked'), i('__secondary_attribute_count')),
        '.on %d (.set .i32OfI16)' % i('flags')).replace('bif xrec then match', 'bif xrec then (match').replace(' else .on %d (.set .i32OfI16)' % i('flags'), ') else .on %d (.set .i32OfI16)' % i('flags'))))
    A.append((71, '.on %d (.set .i32OfI16)' % i('text_generation_flags')))
    e = lambda t, d: '(.enumI16 %s ⟨%d, by decide⟩)' % (en(t), [v for v, _ in ENUMS[t]].index(d))
    A.append((72, '.on %d (.set %s)' % (i('horizontal_text_justification'), e('HorizontalTextJustification', 'Left'))))
    A.append((73, '.on %d (.set .i16)' % i('field_length')))
    A.append((74, '.on %d (.set %s)' % (i('vertical_text_justification'), e('VerticalTextJustification', 'Baseline'))))
    for k, a in enumerate(AXES):
        A.append((210 + 10 * k, '.on %d (.axis .%s)' % (i('normal'), a)))
    A.append((280, 'bif xrec then .on %d (.set .asBool) else bif versionSet then .on %d (.set .asBool) else .on %d (.set %s)' %
        (i('keep_duplicate_records'), i('is_locked_in_block'), i('version'), e('Version', 'R2010'))))
    A.append((340, '.on %d (.push .handle)' % i('__secondary_attributes_handle')))
    return A

def mtext_arms(st):
    i = lambda n: st[n].idx
    e = lambda t, d, w='I16': '(.enum%s %s ⟨%d, by decide⟩)' % (w, en(t), [v for v, _ in ENUMS[t]].index(d))
    A = []
    P = lambda c, n: [A.append((c + 10 * k, '.on %d (.axis .%s)' % (i(n), a))) for k, a in enumerate(AXES)]
    S = lambda c, n, r: A.append((c, '.on %d (.set %s)' % (i(n), r)))
    P(10, 'insertion_point'); S(40, 'initial_text_height', '.f64'); S(41, 'reference_rectangle_width', '.f64')
    S(71, 'attachment_point', e('AttachmentPoint', 'TopLeft')); S(72, 'drawing_direction', e('DrawingDirection', 'LeftToRight'))
    A.append((3, '.on %d (.push .str)' % i('extended_text'))); S(1, 'text', '.str'); S(7, 'text_style_name', '.str')
    P(210, 'extrusion_direction'); P(11, 'x_axis_direction')
    S(42, 'horizontal_width', '.f64'); S(43, 'vertical_height', '.f64')
    A.append((50, 'bif column then bif counted then .on %d (.push .f64) else .on %d (.set .i32OfF64) else .on %d (.set .f64)' % (i('column_heights'), i('column_count'), i('rotation_angle'))))
    S(73, 'line_spacing_style', e('MTextLineSpacingStyle', 'AtLeast')); S(44, 'line_spacing_factor', '.f64')
    S(90, 'background_fill_setting', e('BackgroundFillSetting', 'Off', 'I32'))
    S(420, 'background_color_rgb', '.i32'); S(430, 'background_color_name', '.str'); S(45, 'fill_box_scale', '.f64')
    S(63, 'background_fill_color', '.i16'); S(441, 'background_fill_color_transparency', '.i32')
    S(75, 'column_type', '.i16'); S(76, 'column_count', '.i32OfI16'); S(78, 'is_column_flow_reversed', '.asBool')
    S(79, 'is_column_auto_height', '.asBool'); S(48, 'column_width', '.f64'); S(49, 'column_gutter', '.f64')
    return A

def lw_arms(st):
    i = lambda n: st[n].idx
    v = i('vertices')
    A = [(10, '.on %d .lwNew' % v)]
    for c, f in [(20, 'y'), (40, 'startingWidth'), (41, 'endingWidth'), (42, 'bulge'), (91, 'id')]:
        A.append((c, '.on %d (.lwSet .%s)' % (v, f)))
    A += [(39, '.on %d (.set .f64)' % i('thickness')), (43, '.on %d (.set .f64)' % i('constant_width')), (70, '.on %d (.set .i32OfI16)' % i('flags'))]
    for k, a in enumerate(AXES): A.append((210 + 10 * k, '.on %d (.axis .%s)' % (i('extrusion_direction'), a)))
    return A

def C(i, w, mn=None, mx=None, cond=None): return '{ cmd := .field %d (%s)%s }' % (i, w, gate(mn, mx, cond))

def ptw(c): return '.axes [(.x, %d), (.y, %d), (.z, %d)]' % (c, c + 10, c + 20)

def polyline_cmds(st):
    i = lambda n: st[n].idx
    N = lambda n: 'fun r => ' + neq(st, st[n])
    return ['{ cmd := .computed (t := .str) 100 .str (fun r => bif getFlag (w := 32) (r %d) 8#32 || getFlag (w := 32) (r %d) 16#32 then str!"AcDb3dPolyline" else str!"AcDb2dPolyline"), min := (some .r13) }' % (i('flags'), i('flags')),
        C(i('contains_vertices'), '.one 66 .asI16', mx='R13'), C(i('location'), ptw(10), mn='R12'),
        C(i('thickness'), '.one 39 .f64', cond=N('thickness')), C(i('flags'), '.one 70 .i32AsI16', cond=N('flags')),
        C(i('default_starting_width'), '.one 40 .f64', cond=N('default_starting_width')), C(i('default_ending_width'), '.one 41 .f64', cond=N('default_ending_width')),
        C(i('polygon_mesh_m_vertex_count'), '.one 71 .i32AsI16', cond=N('polygon_mesh_m_vertex_count')), C(i('polygon_mesh_n_vertex_count'), '.one 72 .i32AsI16', cond=N('polygon_mesh_n_vertex_count')),
        C(i('smooth_surface_m_density'), '.one 73 .i32AsI16', cond=N('smooth_surface_m_density')), C(i('smooth_surface_n_density'), '.one 74 .i32AsI16', cond=N('smooth_surface_n_density')),
        C(i('surface_type'), '.one 75 (.enumI16 %s)' % en('PolylineCurvedAndSmoothSurfaceType'), cond=N('surface_type')),
        C(i('normal'), ptw(210), cond=N('normal'))]

def vertex_cmds(st):
    i = lambda n: st[n].idx
    N = lambda n: 'fun r => ' + neq(st, st[n])
    L = ['{ cmd := .const (.newStr 100 str!"AcDbVertex") }',
        '{ cmd := .computed (t := .str) 100 .str (fun r => bif getFlag (w := 32) (r %d) 32#32 || getFlag (w := 32) (r %d) 64#32 then str!"AcDb3dPolylineVertex" else str!"AcDb2dVertex"), min := (some .r13) }' % (i('flags'), i('flags')),
        C(i('location'), ptw(10))]
    for c, n in [(40, 'starting_width'), (41, 'ending_width'), (42, 'bulge')]: L.append(C(i(n), '.one %d .f64' % c, cond=N(n)))
    L += [C(i('flags'), '.one 70 .i32AsI16'), C(i('curve_fit_tangent_direction'), '.one 50 .f64')]
    for k in range(1, 5):
        n = 'polyface_mesh_vertex_index%d' % k
        L.append(C(i(n), '.one %d .i32AsI16' % (70 + k), mn='R12', cond=N(n)))
    L.append(C(i('identifier'), '.one 91 .i32', mn='R2010'))
    return L

DIMS = ['RotatedDimension', 'RadialDimension', 'DiameterDimension', 'AngularThreePointDimension', 'OrdinateDimension']

def gen_entities():
    root = ET.parse(SPEC + 'EntitiesSpec.xml').getroot()
    ents = {e.get('Name'): e for e in root}
    out = [HEAD % 'spec/EntitiesSpec.xml']
    add_fields(COMMON, ents['Entity'])
    com = ents['Entity']
    emit_list(out, 'Fields of `EntityCommon` without `extension_data_groups` and `x_data`.', 'commonDecls : List Decl', spec_lines(COMMON))
    arms = []
    for f in com:
        if tag(f) in ('Field', 'Pointer') and fname(f) not in SKIP_FIELDS: arms += field_arms(COMMON, f)
    out.append('section')
    out.append('variable (ds : List Decl)\n')
    emit_list(out, 'Match arms of `EntityCommon::apply_individual_pair` (build/entity_generator.rs:158-199).',
              'commonArms : List (Arm (commonDecls ++ ds))', ['⟨%d, %s⟩' % a for a in arms])
    out.append('/-- The statement for the handle. -/')
    out.append('def commonHead (writeHandles : Bool) : List (GCmd (commonDecls ++ ds)) :=')
    out.append('  [{ cmd := .field 0 (.one 5 .handle), cond := fun _ => writeHandles }]\n')
    cm = []
    byname = {}
    for f in com:
        if tag(f) in ('Field', 'Pointer'): byname.setdefault(f.get('Name'), f)
    wo = list([c for c in com if tag(c) == 'WriteOrder'][0])
    assert [ (tag(c), c.get('Field')) for c in wo[:3]] == [('WriteField', 'handle'), ('WriteExtensionData', None), ('WriteField', 'owner')]
    cm.append('{ cmd := .field 1 (.one 330 .handle), cond := fun r => writeHandles && !(Ty.rustEq .handle (r 1) (0#64 : Handle)) }')
    for c in wo[3:]:
        if tag(c) == 'WriteField':
            assert not c.get('WriteCondition') and not c.get('DontWriteIfValueIs')
            cm.append(field_cmd(COMMON, byname[c.get('Field')]))
        else: cm.append(specific_value(COMMON, c))
    emit_list(out, 'The statements of `EntityCommon::add_code_pairs` after the extension groups (build/entity_generator.rs:201-208).',
              'commonCmds (writeHandles : Bool) : List (GCmd (commonDecls ++ ds))', cm)
    out.append('end\n')
    base = len(COMMON.order)
    info = []
    names = {'': [n for n, _, _ in COMMON.order]}
    for n, e in ents.items():
        if n in ('Entity', 'DimensionBase') or n in DIMS: continue
        ns = lcamel(n)
        st = Struct(base); add_fields(st, e)
        names[ns] = [x for x, _, _ in st.order]
        ds = 'Ent.%sSpec' % ns
        emit_list(out, 'Fields of `%s`.' % n, '%s : List Decl' % ds, spec_lines(st)) if st.order else out.append('/-- `%s` has no fields. -/\ndef %s : List Decl := []\n' % (n, ds))
        full = '(commonDecls ++ %s)' % ds
        arms = []
        mode = ''
        eof = False
        if e.get('GenerateReaderFunction') == 'false':
            eof = True
            if n == 'Attribute': arms, mode = attribute_arms(st, 'attribute_tag', False), '(xrec versionSet : Bool) (n : Nat) '
            elif n == 'AttributeDefinition': arms, mode = attribute_arms(st, 'text_tag', True), '(xrec versionSet : Bool) (n : Nat) '
            elif n == 'MText': arms, mode = mtext_arms(st), '(column counted : Bool) '
            elif n == 'LwPolyline': arms = lw_arms(st)
            else: raise Exception(n)
            src = {'Attribute': '805-', 'AttributeDefinition': '953-', 'MText': '1156-', 'LwPolyline': '1104-'}[n]
            doc = 'Match arms of the hand-written reader of `%s` (src/entity.rs:%s).' % (n, src)
        else:
            seen = set()
            for f in e:
                if tag(f) in ('Field', 'Pointer') and fname(f) not in SKIP_FIELDS and f.get('GenerateReader') != 'false':
                    for c, a in field_arms(st, f):
                        arms.append((c, a))
            doc = 'Match arms of the reader of `%s`.' % n
        L = ['⟨%d, %s⟩' % a for a in arms]
        out.append('/-- %s -/' % doc)
        if L:
            out.append('def Ent.%sArms %s: List (Arm %s) := [' % (ns, mode, full))
            out.append(',\n'.join('  ' + a for a in L) + '] ++ commonArms %s\n' % ds)
        else:
            out.append('def Ent.%sArms : List (Arm %s) := commonArms %s\n' % (ns, full, ds))
        if n == 'Polyline': cmds = polyline_cmds(st)
        elif n == 'Vertex': cmds = vertex_cmds(st)
        elif n == 'Seqend': cmds = []
        else: cmds = write_cmds(st, e)
        arg = '(n : Nat) ' if n == 'Insert' else ''
        if cmds: emit_list(out, 'The specific write statements of `%s`.' % n, 'Ent.%sCmds %s: List (GCmd %s)' % (ns, arg, full), cmds)
        else: out.append('/-- `%s` writes nothing specific. -/\ndef Ent.%sCmds : List (GCmd %s) := []\n' % (n, ns, full))
        info.append((n, ns, e.get('TypeString'), e.get('MinVersion'), e.get('MaxVersion'), eof, mode, arg))
    # dimensions
    st = Struct(base); add_fields(st, ents['DimensionBase'])
    for d in DIMS: add_fields(st, ents[d])
    names['dimension'] = [x for x, _, _ in st.order]
    ds = 'Ent.dimensionSpec'; full = '(commonDecls ++ %s)' % ds
    i = lambda n: st[n].idx
    emit_list(out, 'Fields of `DimensionBase` and of the five kinds of dimensions together; a kind uses its own ones.',
              '%s : List Decl' % ds, spec_lines(st))
    dt, b32, b64, b128 = i('dimension_type'), i('is_block_reference_referenced_by_this_block_only'), i('is_ordinate_x_type'), i('is_at_user_defined_location')
    out.append("""/-- Models `DimensionBase::set_dimension_type`, src/entity.rs:45-51. -/
def Ent.readDimensionType : Act %(full)s := .custom [%(dt)d, %(b32)d, %(b64)d, %(b128)d] fun r p =>
  match p.assertI16 with
  | .error e => .error e
  | .ok v =>
    .ok ((((r.set %(b32)d (decide (v &&& 32#16 = 32#16) : Bool)).set %(b64)d (decide (v &&& 64#16 = 64#16) : Bool)).set
      %(b128)d (decide (v &&& 128#16 = 128#16) : Bool)).set %(dt)d
        (enumOfInt E.dimensionType ⟨%(al)d, by decide⟩ (v &&& 0x0F#16).toInt : Fin (List.length E.dimensionType)))

/-- Models `DimensionBase::dimension_type`, src/entity.rs:52-64. -/
def Ent.dimensionWord (r : Rec %(full)s) : I16 :=
  let val : I16 := BitVec.ofInt 16 (E.dimensionType.get (r %(dt)d))
  let val := bif r %(b32)d then val ||| 32#16 else val
  let val := bif r %(b64)d then val ||| 64#16 else val
  bif r %(b128)d then val ||| 128#16 else val
""" % dict(full=full, dt=dt, b32=b32, b64=b64, b128=b128, al=[v for v, _ in ENUMS['DimensionType']].index('Aligned')))
    en('DimensionType')
    e = lambda t, d: '(.enumI16 %s ⟨%d, by decide⟩)' % (en(t), [v for v, _ in ENUMS[t]].index(d))
    S = lambda c, n, r: (c, '.on %d (.set %s)' % (i(n), r))
    P = lambda c, n: [(c + 10 * k, '.on %d (.axis .%s)' % (i(n), a)) for k, a in enumerate(AXES)]
    baseA = [S(1, 'text', '.str'), S(2, 'block_name', '.str'), S(3, 'dimension_style_name', '.str')] + P(10, 'definition_point_1') + P(11, 'text_mid_point') + \
        [S(41, 'text_line_spacing_factor', '.f64'), S(42, 'actual_measurement', '.f64'), S(51, 'horizontal_direction_angle', '.f64'), S(53, 'text_rotation_angle', '.f64'),
         (70, 'Ent.readDimensionType'), S(71, 'attachment_point', e('AttachmentPoint', 'TopLeft')), S(72, 'text_line_spacing_style', e('TextLineSpacingStyle', 'AtLeast'))] + \
        P(210, 'normal') + [S(280, 'version', e('Version', 'R2010')), (100, '.on 999 (.set .ignoreStr)')]
    emit_list(out, 'Match arms for a dimension before its kind is known (src/entity.rs:438-583).', 'Ent.dimensionBaseArms : List (Arm %s)' % full, ['⟨%d, %s⟩' % a for a in baseA])
    rot = P(12, 'insertion_point') + P(13, 'definition_point_2') + P(14, 'definition_point_3') + [S(50, 'rotation_angle', '.f64'), S(52, 'extension_line_angle', '.f64')]
    rad = P(15, 'definition_point_2') + [S(40, 'leader_length', '.f64')]
    ang = P(13, 'definition_point_2') + P(14, 'definition_point_3') + P(15, 'definition_point_4') + P(16, 'definition_point_5')
    ordi = P(13, 'definition_point_2') + P(14, 'definition_point_3')
    for nm, A in [('rotated', rot), ('radial', rad), ('angular', ang), ('ordinate', ordi)]:
        emit_list(out, 'Arms of `apply_dimension_code_pair` (src/entity.rs:236-380).', 'Ent.%sArms : List (Arm %s)' % (nm, full), ['⟨%d, %s⟩' % a for a in A])
    out.append("""/-- Match arms for a dimension: `n` is 0 before the kind is known, then 1 rotated, 2 radial,
3 diameter, 4 angular, 5 ordinate. -/
def Ent.dimensionArms (n : Nat) : List (Arm %s) :=
  (match n with
    | 0 => Ent.dimensionBaseArms
    | 1 => Ent.rotatedArms
    | 2 => Ent.radialArms
    | 3 => Ent.radialArms
    | 4 => Ent.angularArms
    | 5 => Ent.ordinateArms
    | _ => []) ++ commonArms Ent.dimensionSpec
""" % full)
    cm = ['{ cmd := .const (.newStr 100 str!"AcDbDimension"), min := (some .r13) }']
    for f in ents['DimensionBase']:
        if f.get('GenerateWriter') == 'false': continue
        if f.get('Name') == 'dimension_type':
            cm.append('{ cmd := .computed (t := .i16) 70 .i16 Ent.dimensionWord }')
        else: cm.append(field_cmd(st, f))
    emit_list(out, 'The statements of `DimensionBase::add_code_pairs`.', 'Ent.dimensionBaseCmds : List (GCmd %s)' % full, cm)
    pc = lambda c, n: C(i(n), ptw(c))
    fc = lambda c, n: C(i(n), '.one %d .f64' % c)
    mk = lambda s, mn=None: '{ cmd := .const (.newStr 100 str!"%s")%s }' % (s, gate(mn, None))
    W = {1: [mk('AcDbAlignedDimension', 'R13'), pc(12, 'insertion_point'), pc(13, 'definition_point_2'), pc(14, 'definition_point_3'), fc(50, 'rotation_angle'), fc(52, 'extension_line_angle'), mk('AcDbRotatedDimension', 'R13')],
         2: [mk('AcDbRadialDimension'), pc(15, 'definition_point_2'), fc(40, 'leader_length')],
         3: [mk('AcDbDiametricDimension'), pc(15, 'definition_point_2'), fc(40, 'leader_length')],
         4: [mk('AcDb3PointAngularDimension'), pc(13, 'definition_point_2'), pc(14, 'definition_point_3'), pc(15, 'definition_point_4'), pc(16, 'definition_point_5')],
         5: [mk('AcDbOrdinateDimension'), pc(13, 'definition_point_2'), pc(14, 'definition_point_3')]}
    out.append('/-- The statements of `add_custom_code_pairs_*dimension`, src/entity.rs:1342-1430. -/')
    out.append('def Ent.dimensionCmds (n : Nat) : List (GCmd %s) :=' % full)
    out.append('  Ent.dimensionBaseCmds ++ match n with')
    for k in range(1, 6):
        out.append('    | %d => [\n      %s]' % (k, ',\n      '.join(W[k])))
    out.append('    | _ => []\n')
    out.append('end Dxf')
    open(OUT + 'Entities.lean', 'w').write('\n'.join(out) + '\n')
    return info, names

def gen_entity_names(info):
    L = ['import Verif.Model.EKind', '', '/-! Generated from spec/EntitiesSpec.xml by tools/gen_specs.py; do not edit. -/', '',
         'namespace Dxf', '', '/-- The kinds of entities.  `dimension` stands for the five kinds of dimensions. -/',
         'inductive EName where']
    for x in info: L.append('  | %s' % x[1])
    L += ['  | dimension', '  deriving DecidableEq, Repr', '', 'namespace EName', '', '/-- What is generated for a kind. -/', 'def kind : EName → EKind']
    for (n, ns, ts, mn, mx, eof, mode, arg) in info:
        names = ts.split(',')
        arms = {'Attribute': 'fun m => Ent.attributeArms m.a m.b m.n', 'AttributeDefinition': 'fun m => Ent.attributeDefinitionArms m.a m.b m.n',
                'MText': 'fun m => Ent.mTextArms m.a m.b'}.get(n, 'fun _ => Ent.%sArms' % ns)
        nxt = {'Attribute': 'Ent.attributeNext', 'AttributeDefinition': 'Ent.attributeNext', 'MText': 'Ent.mTextNext'}.get(n)
        L.append('  | .%s => {' % ns)
        L.append('    typeString := str!"%s"' % names[0])
        L.append('    names := [%s]' % ', '.join('str!"%s"' % a for a in names))
        L.append('    min := %s' % (ver(mn) if mn else 'none'))
        L.append('    max := %s' % (ver(mx) if mx else 'none'))
        L.append('    spec := Ent.%sSpec' % ns)
        L.append('    eof := %s' % ('true' if eof else 'false'))
        L.append('    arms := %s' % arms)
        if nxt: L.append('    next := %s' % nxt)
        L.append('    cmds := %s }' % ('Ent.%sCmds' % ns if arg else 'fun _ => Ent.%sCmds' % ns))
    L += ['  | .dimension => {', '    typeString := str!"DIMENSION"', '    names := [str!"DIMENSION"]', '    min := none', '    max := none',
          '    spec := Ent.dimensionSpec', '    eof := false', '    arms := fun m => Ent.dimensionArms m.n', '    next := Ent.dimensionNext',
          '    sub := fun m => if m.n = 0 then none else some m.n', '    cmds := Ent.dimensionCmds }', '']
    allk = [x[1] for x in info] + ['dimension']
    import textwrap
    L += ['/-- All kinds. -/', 'def all : List EName :='] + textwrap.wrap('[' + ', '.join('.' + k for k in allk) + ']', 96, initial_indent='  ', subsequent_indent='    ')
    L += ['', 'theorem mem_all (k : EName) : k ∈ all := by cases k <;> decide', '', 'end EName', '', 'end Dxf']
    open(OUT + 'EntityNames.lean', 'w').write('\n'.join(L) + '\n')

# ---------------------------------------------------------------- objects

OBJ = Struct(0)

# fields kept outside the record (lists of structs, maps, matrices, vectors used while reading)
OBJ_SKIP = {
    'DictionaryWithDefault': {'value_handles'}, 'Dictionary': {'value_handles'},
    'DataTable': {'column_count', 'row_count', 'name', 'column_names', 'values'},
    'GeoData': {'geo_mesh_points', 'face_indices'}, 'MLineStyle': {'elements'},
    'SectionSettings': {'geometry_settings'},
    'SpatialFilter': {'clip_boundary_definition_points', 'inverse_transformation_matrix', 'transformation_matrix'},
    'SunStudy': {'dates', 'hours'}, 'TableStyle': {'cell_styles'}, 'XRecordObject': {'data_pairs'},
}

IDENTITY = '([%s] : List F64)' % ', '.join(f64(1.0 if k % 5 == 0 else 0.0) for k in range(16))

def obj_fields(st, o):
    skip = OBJ_SKIP.get(o.get('Name'), set())
    for f in o:
        if tag(f) not in ('Field', 'Pointer') or fname(f) in skip or fname(f) in SKIP_FIELDS: continue
        fn = fname(f); mult = f.get('AllowMultiples') == 'true'
        if fn in st.fields: continue
        if tag(f) == 'Pointer':
            d = 'vec![]' if mult else 'Handle::empty()'
            st.add(fn, ty('Handle', mult), default('Handle', d, mult), 'Handle', mult, d)
        elif f.get('Type') == 'TransformationMatrix':
            st.add(fn, '.list .f64', IDENTITY, 'f64', True, 'vec![]')
        elif f.get('Type') == 'u8':
            st.add(fn, '.bytes', '([] : List Byte)', 'Vec<u8>', False, 'vec![]')
        elif f.get('Type') == 'Handle' and f.get('DefaultValue') == 'Handle(0)':
            st.add(fn, '.handle', '(0#64 : Handle)', 'Handle', False, 'Handle::empty()')
        else:
            st.add(fn, ty(f.get('Type'), mult), default(f.get('Type'), f.get('DefaultValue'), mult), f.get('Type'), mult, f.get('DefaultValue'))

def obj_specific(st, e):
    c = int(e.get('Code')); v = e.get('Value'); t = expected_type(c)
    g = gate(e.get('MinVersion'), e.get('MaxVersion'))
    assert not e.get('DontWriteIfValueIs')
    m = re.match(r'^&?String::from\("([^"]*)"\)$', v)
    if m: return '{ cmd := .const (.newStr %d str!"%s")%s }' % (c, m.group(1), g)
    if v == '0': return '{ cmd := .const (.newI32 %d 0#32)%s }' % (c, g)
    if v == 'obj.__format_string.len() as i32':
        return '{ cmd := .computed (t := .i32) %d .i32 (fun r => BitVec.ofNat 32 (utf8Encode (r %d)).length)%s }' % (c, st['__format_string'].idx, g)
    m = re.match(r'^obj\.(\w+)\.len\(\) as (i16|i32)$', v)
    if m:
        fd = st[m.group(1)]
        L = '(fun a : List %s => a.length) (r %d)' % ('Byte' if fd.rust == 'Vec<u8>' and not fd.mult else par(den(fd.rust)), fd.idx)
        assert m.group(2) == t
        return '{ cmd := .computed (t := .i32) %d %s (fun r => BitVec.ofNat 32 (%s))%s }' % (c, '.i32' if t == 'i32' else '.i32AsI16', L, g)
    m = re.match(r'^&?obj\.(\w+)$', v); assert m, v
    fd = st[m.group(1)]
    return '{ cmd := .field %d (.one %d %s)%s }' % (fd.idx, c, wconv(fd.rust, '', c), g)

def obj_foreach(st, e):
    m = re.match(r'^obj\.(\w+)(\.values\(\))?$', e.get('Field')); fd = st[m.group(1)]
    out = []
    for c in e:
        code = int(c.get('Code')); v = c.get('Value')
        conv = {'item': '.str', '*item': '.f64', 'item.clone()': '.bytes', '&item.as_string()': '.handle'}[v]
        out.append('{ cmd := .field %d (.many %d %s)%s }' % (fd.idx, code, conv, gate(c.get('MinVersion'), c.get('MaxVersion'))))
    # one statement inside the loop, or two that exclude each other by version
    assert len(out) == 1 or [(c.get('MaxVersion'), c.get('MinVersion')) for c in e] == [('R2007', None), (None, 'R2010')]
    return out

# statements that are not part of the record part; the list of statements is cut there
def obj_outside(n, c):
    v = (c.get('Value') or '') + (c.get('Field') or '')
    return any('obj.' + x in v for x in OBJ_SKIP.get(n, ()))

def obj_cmds(st, o):
    """The write statements as segments between the parts that are modelled by hand."""
    n = o.get('Name')
    wo = [c for c in o if tag(c) == 'WriteOrder']
    byname = {}
    for f in o:
        if tag(f) in ('Field', 'Pointer'): byname.setdefault(f.get('Name'), f)
    segs = [[]]
    if wo:
        last_out = False
        for c in wo[0]:
            out = obj_outside(n, c) or c.get('Field') in OBJ_SKIP.get(n, ())
            if out:
                if not last_out: segs.append([])
                last_out = True
                continue
            last_out = False
            if tag(c) == 'WriteField':
                assert not c.get('WriteCondition') and not c.get('DontWriteIfValueIs')
                segs[-1].append(field_cmd(st, byname[c.get('Field')]))
            elif tag(c) == 'WriteSpecificValue': segs[-1].append(obj_specific(st, c))
            elif tag(c) == 'Foreach': segs[-1] += obj_foreach(st, c)
            else: raise Exception(tag(c))
        if last_out and not segs[-1]: segs.pop()
        return segs
    if o.get('SubclassMarker'): segs[0].append('{ cmd := .const (.newStr 100 str!"%s") }' % o.get('SubclassMarker'))
    for f in o:
        if tag(f) in ('Field', 'Pointer') and f.get('GenerateWriter') != 'false': segs[0].append(field_cmd(st, f))
    return segs

def enI16(t, d): return '(.enumI16 %s ⟨%d, by decide⟩)' % (en(t), [v for v, _ in ENUMS[t]].index(d))
def enW(t): return '(.enumI16 %s)' % en(t)
DUP = ('DictionaryDuplicateRecordHandling', 'NotApplicable')

def custom_objects(n, st):
    """Arms (in terms of the mode `m`) and statements of the hand-written readers and writers."""
    i = lambda x: st[x].idx
    S = lambda c, x, r: (c, '.on %d (.set %s)' % (i(x), r))
    PU = lambda c, x, r: (c, '.on %d (.push %s)' % (i(x), r))
    P = lambda c, x, k=3: [(c + 10 * j, '.on %d (.axis .%s)' % (i(x), a)) for j, a in enumerate(AXES[:k])]
    mk = lambda s: '{ cmd := .const (.newStr 100 str!"%s") }' % s
    if n == 'DictionaryWithDefault':
        return [S(281, 'duplicate_record_handling', enI16(*DUP)), S(340, 'default_handle', '.handle')], \
            [[mk('AcDbDictionary'), C(i('duplicate_record_handling'), '.one 281 ' + enW(DUP[0]), mn='R2000'), C(i('default_handle'), '.one 340 .handle')]]
    if n == 'Dictionary':
        return [S(280, 'is_hard_owner', '.asBool'), S(281, 'duplicate_record_handling', enI16(*DUP))], \
            [[mk('AcDbDictionary'), C(i('is_hard_owner'), '.one 280 .asI16', mn='R2000', cond='fun r => !(r %d : Bool)' % i('is_hard_owner')),
              C(i('duplicate_record_handling'), '.one 281 ' + enW(DUP[0]), mn='R2000')]]
    if n == 'DataTable':
        return [S(70, 'field', '.i16')], [[mk('AcDbDataTable'), C(i('field'), '.one 70 .i16')]]
    if n == 'Layout':
        A = [S(1, 'layout_name', '.str')] + P(10, 'minimum_limits', 2) + P(11, 'maximum_limits', 2) + P(12, 'insertion_base_point') + P(13, 'ucs_origin') + \
            P(14, 'minimum_extents') + P(15, 'maximum_extents') + P(16, 'ucs_x_axis') + P(17, 'ucs_y_axis') + \
            [S(70, 'layout_flags', '.i32OfI16'), S(71, 'tab_order', '.i32OfI16'), S(76, 'ucs_orthographic_type', enI16('UcsOrthographicType', 'NotOrthographic')),
             S(146, 'elevation', '.f64'), S(330, '__viewport_handle', '.handle'), S(345, '__table_record_handle', '.handle'), S(346, '__table_record_base_handle', '.handle')]
        return A, None
    if n == 'LightList':
        return [S(90, 'version', '.i32')], [[mk('AcDbLightList'), C(i('version'), '.one 90 .i32')]]
    if n == 'Material':
        proj = enI16('MapProjectionMethod', 'Planar'); tile = enI16('MapTilingMethod', 'Tile'); auto = enI16('MapAutoTransformMethod', 'NoAutoTransform')
        def alt(c, first, second, r, r2=None):
            return (c, 'bif m.seen.contains %d then .on %d (.set %s) else .on %d (.set %s)' % (c, i(second), r2 or r, i(first), r))
        def alt3(c, a, ra, b, rb, d, rd):
            return (c, 'match m.seen.count %d with | 0 => .on %d (.set %s) | 1 => .on %d (.set %s) | _ => .on %d (.set %s)' % (c, i(a), ra, i(b), rb, i(d), rd))
        V = lambda x: '__%s_map_transformation_matrix_values' % x
        A = [S(1, 'name', '.str'), S(2, 'description', '.str'), alt(3, 'diffuse_map_file_name', 'normal_map_file_name', '.str'), S(4, 'normal_map_file_name', '.str'),
             S(6, 'reflection_map_file_name', '.str'), S(7, 'opacity_map_file_name', '.str'), S(8, 'bump_map_file_name', '.str'), S(9, 'refraction_map_file_name', '.str'),
             S(40, 'ambient_color_factor', '.f64'), S(41, 'diffuse_color_factor', '.f64'), alt(42, 'diffuse_map_blend_factor', 'normal_map_blend_factor', '.f64'),
             (43, 'bif m.a then .on %d (.push .f64) else .on %d (.push .f64)' % (i(V('normal')), i(V('diffuse')))),
             S(44, 'specular_gloss_factor', '.f64'), S(45, 'specular_color_factor', '.f64'), S(46, 'specular_map_blend_factor', '.f64'), PU(47, V('specular'), '.f64'),
             S(48, 'reflection_map_blend_factor', '.f64'), PU(49, V('reflection'), '.f64'), S(62, 'gen_proc_color_index_value', '.i16'),
             S(70, 'override_ambient_color', '.asBool'), S(71, 'override_diffuse_color', '.asBool'), alt(72, 'use_image_file_for_diffuse_map', 'use_image_file_for_normal_map', '.asBool'),
             alt(73, 'diffuse_map_projection_method', 'normal_map_projection_method', proj), alt(74, 'diffuse_map_tiling_method', 'normal_map_tiling_method', tile),
             alt(75, 'diffuse_map_auto_transform_method', 'normal_map_auto_transform_method', auto), S(76, 'override_specular_color', '.asBool'),
             S(77, 'use_image_file_for_specular_map', '.asBool'), S(78, 'specular_map_projection_method', proj), S(79, 'specular_map_tiling_method', tile),
             alt(90, 'ambient_color_value', 'self_illumination', '.i32'), S(91, 'diffuse_color_value', '.i32'), S(92, 'specular_color_value', '.i32'),
             S(93, 'illumination_model', '.i32'), S(94, 'channel_flags', '.i32'), S(140, 'opacity_factor', '.f64'), S(141, 'opacity_map_blend_factor', '.f64'),
             PU(142, V('opacity'), '.f64'), S(143, 'bump_map_blend_factor', '.f64'), PU(144, V('bump'), '.f64'), S(145, 'refraction_index', '.f64'),
             S(146, 'refraction_map_blend_factor', '.f64'), PU(147, V('refraction'), '.f64'), S(148, 'translucence', '.f64'),
             S(170, 'specular_map_auto_transform_method', auto), S(171, 'use_image_file_for_reflection_map', '.asBool'), S(172, 'reflection_map_projection_method', proj),
             S(173, 'reflection_map_tiling_method', tile), S(174, 'reflection_map_auto_transform_method', auto), S(175, 'use_image_file_for_opacity_map', '.asBool'),
             S(176, 'opacity_map_projection_method', proj), S(177, 'opacity_map_tiling_method', tile), S(178, 'opacity_map_auto_transform_method', auto),
             S(179, 'use_image_file_for_bump_map', '.asBool'), alt3(270, 'bump_map_projection_method', proj, 'luminance_mode', '.i16', 'map_u_tile', '.i16'),
             alt3(271, 'bump_map_tiling_method', tile, 'normal_map_method', '.i16', 'gen_proc_integer_value', '.i16'),
             alt(272, 'bump_map_auto_transform_method', 'global_illumination_mode', auto, '.i16'), alt(273, 'use_image_file_for_refraction_map', 'final_gather_mode', '.asBool', '.i16'),
             S(274, 'refraction_map_projection_method', proj), S(275, 'refraction_map_tiling_method', tile), S(276, 'refraction_map_auto_transform_method', auto),
             S(290, 'is_two_sided', '.bool'), S(291, 'gen_proc_boolean_value', '.bool'), S(292, 'gen_proc_table_end', '.bool'), S(293, 'is_anonymous', '.bool'),
             S(300, 'gen_proc_name', '.str'), S(301, 'gen_proc_text_value', '.str'), S(420, 'gen_proc_color_rgb_value', '.i32'), S(430, 'gen_proc_color_name', '.str'),
             S(460, 'color_bleed_scale', '.f64'), S(461, 'indirect_dump_scale', '.f64'), S(462, 'reflectance_scale', '.f64'), S(463, 'transmittance_scale', '.f64'),
             S(464, 'luminance', '.f64'), S(465, 'normal_map_strength', '.f64'), S(468, 'reflectivity', '.f64'), S(469, 'gen_proc_real_value', '.f64')]
        return A, None
    if n == 'MLineStyle':
        return [S(2, 'style_name', '.str'), S(3, 'description', '.str'), PU(6, '__element_line_types', '.str'), PU(49, '__element_offsets', '.f64'),
                S(51, 'start_angle', '.f64'), S(52, 'end_angle', '.f64'),
                (62, 'bif m.a then .on %d (.push .i16) else .on %d (.set .i16)' % (i('__element_colors'), i('fill_color'))), S(70, '__flags', '.i32OfI16'), S(71, '__element_count', '.i32OfI16')], None
    if n == 'SectionSettings':
        return [S(90, 'section_type', '.i32')], [[mk('AcDbSectionSettings'), C(i('section_type'), '.one 90 .i32')]]
    if n == 'SortentsTable':
        return [(5, 'bif m.a then .on %d (.push .handle) else .on 0 (.set .handle)' % i('__sort_items_handle')), PU(331, '__entities_handle', '.handle')], None
    if n == 'SpatialFilter':
        return P(11, 'clip_boundary_origin') + [S(40, 'front_clipping_plane_distance', '.f64'), S(41, 'back_clipping_plane_distance', '.f64'),
                S(71, 'is_clip_boundary_enabled', '.asBool'), S(72, 'is_front_clipping_plane', '.asBool'), S(73, 'is_back_clipping_plane', '.asBool')] + \
               P(210, 'clip_boundary_normal'), None
    if n == 'SunStudy':
        A = [S(1, 'sun_setup_name', '.str'), S(2, 'description', '.str'), S(3, 'sheet_set_name', '.str'), S(4, 'sheet_subset_name', '.str'), S(40, 'spacing', '.f64'),
             S(70, 'output_type', '.i16'), S(74, 'shade_plot_type', '.i16'), S(75, 'viewports_per_page', '.i32OfI16'), S(76, 'viewport_distribution_row_count', '.i32OfI16'),
             S(77, 'viewport_distribution_column_count', '.i32OfI16'), S(90, 'version', '.i32'), S(93, 'start_time_seconds_past_midnight', '.i32'),
             S(94, 'end_time_seconds_past_midnight', '.i32'), S(95, 'interval_in_seconds', '.i32'), S(290, 'use_subset', '.bool'),
             S(291, 'select_dates_from_calendar', '.bool'), S(292, 'select_range_of_dates', '.bool'), S(293, 'lock_viewports', '.bool'), S(294, 'label_viewports', '.bool'),
             S(340, '__page_setup_wizard_handle', '.handle'), S(341, '__view_handle', '.handle'), S(342, '__visual_style_handle', '.handle'), S(343, '__text_style_handle', '.handle')]
        return A, None
    if n == 'TableStyle':
        return [S(3, 'description', '.str'), S(40, 'horizontal_cell_margin', '.f64'), S(41, 'vertical_cell_margin', '.f64'),
                S(70, 'flow_direction', enI16('FlowDirection', 'Down')), S(71, 'flags', '.i32OfI16'),
                (280, 'bif m.a then .on %d (.set .asBool) else .on %d (.set %s)' % (i('is_title_suppressed'), i('version'), enI16('Version', 'R2010'))),
                S(281, 'is_column_heading_suppressed', '.asBool')], None
    if n == 'XRecordObject':
        return [S(280, 'duplicate_record_handling', enI16(*DUP))], [[mk('AcDbXrecord'), C(i('duplicate_record_handling'), '.one 280 ' + enW(DUP[0]))]]
    raise Exception(n)

OBJ_NEXT = {'Layout': 'layoutNext', 'Material': 'materialNext', 'MLineStyle': 'mLineStyleNext', 'SortentsTable': 'sortentsNext',
            'SpatialFilter': 'spatialNext', 'SunStudy': 'sunStudyNext', 'TableStyle': 'tableStyleNext', 'XRecordObject': 'xRecordNext'}

OBJ_SRC = {'DataTable': 316, 'Dictionary': 445, 'DictionaryWithDefault': 478, 'Layout': 511, 'LightList': 629, 'Material': 663, 'MLineStyle': 1074,
           'SectionSettings': 1123, 'SortentsTable': 1147, 'SpatialFilter': 1181, 'SunStudy': 1275, 'TableStyle': 1386, 'XRecordObject': 1435}

def gen_objects():
    root = ET.parse(SPEC + 'ObjectsSpec.xml').getroot()
    out = [(HEAD % 'spec/ObjectsSpec.xml').replace('import Verif.Data.Enums', 'import Verif.Model.Encoding\nimport Verif.Data.Enums')]
    com = root[0]; assert com.get('Name') == 'Object'
    obj_fields(OBJ, com)
    emit_list(out, 'Fields of `ObjectCommon` without `extension_data_groups` and `x_data`.', 'objectDecls : List Decl', spec_lines(OBJ))
    out.append('/-- The local variables of the hand-written readers that decide what a code means: see `OName.next`. -/')
    out.append('structure OMode where\n  a : Bool\n  seen : List Int\n  deriving DecidableEq, Repr\n')
    out.append('section\nvariable (ds : List Decl)\n')
    emit_list(out, 'Match arms of `ObjectCommon::apply_individual_pair` (build/object_generator.rs:158-199).',
              'objectArms : List (Arm (objectDecls ++ ds))', ['⟨5, .on 0 (.set .handle)⟩', '⟨330, .on 1 (.set .handle)⟩'])
    emit_list(out, 'The statement for the handle, before the extension groups (build/object_generator.rs:201-212).',
              'objectHead : List (GCmd (objectDecls ++ ds))', ['{ cmd := .field 0 (.one 5 .handle) }'])
    emit_list(out, 'The statement for the owner, after the extension groups.',
              'objectCmds : List (GCmd (objectDecls ++ ds))', ['{ cmd := .field 1 (.one 330 .handle), cond := fun r => !(Ty.rustEq .handle (r 1) (0#64 : Handle)) }'])
    out.append('end\n')
    info = []; names = {}
    for o in root[1:]:
        n = o.get('Name'); ns = lcamel(n)
        st = Struct(2); obj_fields(st, o)
        names[ns] = [x for x, _, _ in st.order]
        ds = 'Obj.%sSpec' % ns; full = '(objectDecls ++ %s)' % ds
        if st.order: emit_list(out, 'Fields of `%s`.' % n, '%s : List Decl' % ds, spec_lines(st))
        else: out.append('/-- `%s` has no fields. -/\ndef %s : List Decl := []\n' % (n, ds))
        custom = o.get('GenerateReaderFunction') == 'false'
        segs = None
        if custom:
            arms, segs = custom_objects(n, st)
            doc = 'Match arms of the hand-written reader of `%s` (src/object.rs:%d-).' % (n, OBJ_SRC[n])
        else:
            arms = []
            if n not in ('PlaceHolder', 'ObjectPointer'):
                seen = set()
                for f in o:
                    if tag(f) == 'Field' and f.get('GenerateReader') != 'false':
                        if fname(f) in OBJ_SKIP.get(n, ()):
                            seen.update(codes(f)); continue
                        new = [c for c in codes(f) if c not in seen]
                        if not new: continue
                        assert new == codes(f), (n, f.attrib)
                        seen.update(new)
                        arms += field_arms(st, f)
                    elif tag(f) == 'Pointer': arms += field_arms(st, f)
            doc = 'Match arms of the reader of `%s`.' % n
        if segs is None: segs = obj_cmds(st, o)
        mode = any('m.' in a for _, a in arms) or n == 'Layout'
        arg = '(m : OMode) ' if mode else ''
        L = ['⟨%d, %s⟩' % a for a in arms]
        out.append('/-- %s -/' % doc)
        if n == 'Layout':
            out.append('def Obj.%sArms %s: List (Arm %s) := bif m.a then [' % (ns, arg, full))
            out.append(',\n'.join('  ' + a for a in L) + '] ++ objectArms %s else ⟨100, .on 999 (.set .ignoreStr)⟩ :: objectArms %s\n' % (ds, ds))
        elif L:
            out.append('def Obj.%sArms %s: List (Arm %s) := [' % (ns, arg, full))
            out.append(',\n'.join('  ' + a for a in L) + '] ++ objectArms %s\n' % ds)
        else: out.append('def Obj.%sArms : List (Arm %s) := objectArms %s\n' % (ns, full, ds))
        assert len(segs) <= 3, n
        for k, s in enumerate(segs):
            nm = 'Obj.%sCmds%s' % (ns, '' if k == 0 else str(k + 1))
            if s: emit_list(out, 'The specific write statements of `%s`%s.' % (n, '' if len(segs) == 1 else ', part %d' % (k + 1)), '%s : List (GCmd %s)' % (nm, full), s)
            else: out.append('/-- `%s` writes nothing specific. -/\ndef %s : List (GCmd %s) := []\n' % (n, nm, full))
        info.append((n, ns, o.get('TypeString'), o.get('MinVersion'), o.get('MaxVersion'), custom, mode, len(segs)))
    out.append('end Dxf')
    open(OUT + 'Objects.lean', 'w').write('\n'.join(out) + '\n')
    return info, names

def gen_object_names(info):
    import textwrap
    L = ['import Verif.Model.OKind', '', '/-! Generated from spec/ObjectsSpec.xml by tools/gen_specs.py; do not edit. -/', '',
         'namespace Dxf', '', '/-- The kinds of objects. -/', 'inductive OName where']
    for x in info: L.append('  | %s' % x[1])
    L += ['  deriving DecidableEq, Repr', '', 'namespace OName', '', '/-- What is generated for a kind. -/', 'def kind : OName → OKind']
    for (n, ns, ts, mn, mx, custom, mode, k) in info:
        nm = ts.split(',')
        L += ['  | .%s => {' % ns, '    typeString := str!"%s"' % nm[0], '    names := [%s]' % ', '.join('str!"%s"' % a for a in nm),
              '    min := %s' % (ver(mn) if mn else 'none'), '    max := %s' % (ver(mx) if mx else 'none'), '    spec := Obj.%sSpec' % ns,
              '    eof := %s' % ('true' if custom else 'false'), '    arms := %s' % ('Obj.%sArms' % ns if mode else 'fun _ => Obj.%sArms' % ns)]
        if n in OBJ_NEXT: L.append('    next := Obj.%s' % OBJ_NEXT[n])
        L.append('    cmds := Obj.%sCmds%s' % (ns, ' }' if k == 1 else ''))
        for j in range(2, k + 1): L.append('    cmds%d := Obj.%sCmds%d%s' % (j, ns, j, ' }' if j == k else ''))
    allk = [x[1] for x in info]
    L += ['', '/-- All kinds. -/', 'def all : List OName :='] + textwrap.wrap('[' + ', '.join('.' + k for k in allk) + ']', 96, initial_indent='  ', subsequent_indent='    ')
    L += ['', 'theorem mem_all (k : OName) : k ∈ all := by cases k <;> decide', '', 'end OName', '', 'end Dxf']
    open(OUT + 'ObjectNames.lean', 'w').write('\n'.join(L) + '\n')

def gen_enums():
    L = ['/-! Discriminants of the enums of src/enums.rs used by the specifications.  Generated by',
         'tools/gen_specs.py; do not edit. -/', '', 'namespace Dxf.E', '']
    for n in sorted(USED_ENUMS):
        L.append('/-- `%s`, src/enums.rs:%d: %s. -/' % (n, ENUM_LINE[n], ', '.join(v for v, _ in ENUMS[n])))
        L.append('def %s : List Int := [%s]' % (n[0].lower() + n[1:], ', '.join(str(v) for _, v in ENUMS[n])))
    L += ['', 'end Dxf.E']
    # wrap long doc lines
    import textwrap
    W = []
    for l in L:
        if len(l) > 98:
            ind = '  ' if l.startswith('def') else ''
            W += textwrap.wrap(l, 98, subsequent_indent=ind)
        else: W.append(l)
    open(OUT + 'Enums.lean', 'w').write('\n'.join(W) + '\n')

if __name__ == '__main__':
    info = gen_tables()
    print(info)
    gen_header()
    info, names = gen_entities()
    gen_entity_names(info)
    info, onames = gen_objects()
    gen_object_names(info)
    gen_enums()
