#!/usr/bin/env python3
"""Translate the tables of /repo/policyoperators_test.go and /repo/policyverifiers_test.go to lean/Verif/Validation/GoTests.lean,
and /repo/metadata-policy-test-vectors-2025-02-13.json to lean/Verif/Validation/Vectors*.lean."""
import json, os, re

REPO = '/repo'
OUT = os.path.join(os.path.dirname(os.path.abspath(__file__)), '..', 'lean', 'Verif', 'Validation')


def lstr(s):
    return json.dumps(s, ensure_ascii=False)


# ---------------------------------------------------------------- Go composite literals
TOKEN = re.compile(r'\s*(//[^\n]*|"(?:[^"\\]|\\.)*"|[A-Za-z_][A-Za-z_0-9]*|\[\]|[{}:,\[\]]|-?[0-9]+(?:\.[0-9]+)?|\S)')


def tokens(s):
    return [t for t in TOKEN.findall(s) if not t.startswith('//')]


class P:
    def __init__(self, toks):
        self.t, self.i = toks, 0

    def peek(self):
        return self.t[self.i]

    def next(self):
        self.i += 1
        return self.t[self.i - 1]

    def value(self):
        t = self.next()
        if t.startswith('"'):
            return ('str', json.loads(t))
        if t in ('true', 'false'):
            return ('bool', t == 'true')
        if t == 'nil':
            return ('nil',)
        if re.fullmatch(r'-?[0-9]+(\.[0-9]+)?', t):
            return ('num', t)
        if t == '[]':
            e = self.next()
            if e == 'interface':
                assert self.next() == '{' and self.next() == '}'
                e = 'any'
            return ('slice', e, [v for _, v in self.items()])
        if t == '{':
            self.i -= 1
            return ('struct', dict(self.items()))
        if t == 'struct':
            assert self.items() == []
        return ('map', t, self.items())

    def items(self):
        assert self.next() == '{'
        out = []
        while self.peek() != '}':
            k = None
            if re.fullmatch(r'[A-Za-z_][A-Za-z_0-9]*|".*"', self.peek()) and self.t[self.i + 1] == ':':
                k = self.next()
                self.next()
            out.append((k, self.value()))
            if self.peek() == ',':
                self.next()
        self.next()
        return out


ETY = {'string': '.str', 'any': '.any', 'bool': '.bool', 'int': '.int', 'float64': '.num'}
OPS = {'PolicyOperatorValue': 'value', 'PolicyOperatorDefault': 'default', 'PolicyOperatorAdd': 'add', 'PolicyOperatorOneOf': 'one_of',
       'PolicyOperatorSubsetOf': 'subset_of', 'PolicyOperatorSupersetOf': 'superset_of', 'PolicyOperatorEssential': 'essential'}


def val(v):
    k = v[0]
    if k == 'nil':
        return '.nil'
    if k == 'str':
        return '(.str %s)' % lstr(v[1])
    if k == 'bool':
        return '(.bool %s)' % ('true' if v[1] else 'false')
    if k == 'slice':
        return '(.slice %s false [%s])' % (ETY[v[1]], ', '.join(val(x) for x in v[2]))
    raise ValueError(v)


def entry(v):
    if v[0] == 'nil':
        return '[]'
    assert v[1] == 'MetadataPolicyEntry'
    return '[%s]' % ', '.join('(%s, %s)' % (lstr(OPS[k]), val(x)) for k, x in v[2])


def functions(path):
    src = open(path).read()
    for m in re.finditer(r'^func (Test\w+)\(t \*testing\.T\) \{\n(.*?)^\}', src, re.S | re.M):
        body = m.group(2)
        start = re.search(r'tests := \[\]struct \{.*?\n\t\}\{', body, re.S)
        toks = tokens(body[start.end() - 1:])
        yield m.group(1), [dict(c[1]) for _, c in P(toks).items()], body


def b(v):
    return 'true' if v is not None and v[1] else 'false'


def go_tests():
    merges, applies, verifies, skipped = [], [], [], []
    for name, cases, body in functions(REPO + '/policyoperators_test.go'):
        op = re.search(r'op := policyOperator(\w+)', body).group(1)
        op = {'Add': '.add', 'SubsetOf': '.subsetOf', 'OneOf': '.oneOf', 'SupersetOf': '.supersetOf', 'Value': '.value', 'Default': '.default',
              'Essential': '.essential'}[op]
        for c in cases:
            if any(v[:2] == ('map', 'struct') for v in c.values()):
                skipped.append('`struct{}{}` in ' + name)  # metadata fields have no such type and the model no such values
                continue
            if name.endswith('Merge'):
                merges.append('⟨%s, %s, %s, %s, %s, %s⟩' % (lstr(name + ': ' + c['name'][1]), op, val(c.get('a', ('nil',))), val(c.get('b', ('nil',))),
                                                        val(c.get('expected', ('nil',))), b(c.get('errExpected'))))
            else:
                applies.append('⟨%s, %s, %s, %s, %s, %s, %s, %s⟩' % (
                    lstr(name + ': ' + c['name'][1]), op, val(c.get('value', ('nil',))), b(c.get('valueSet')), val(c.get('policyValue', ('nil',))),
                    b(c.get('essential')), val(c.get('expected', ('nil',))), b(c.get('errExpected'))))
    ver = {'policyVerifierSubsetSupersetOneOf': 'vOneOfExclusive', 'policyVerifierSubsetSupersetOf': 'vSubset opSupersetOf opSubsetOf',
           'policyVerifyAddInSubset': 'vSubset opAdd opSubsetOf', 'policyVerifyAddInOneOf': 'vAddInOneOf',
           'policyVerifyOneOfStillHasValues': 'vOneOfNonempty'}
    for name, cases, body in functions(REPO + '/policyverifiers_test.go'):
        f = re.search(r'err := (\w+)\(', body).group(1)
        if f not in ver:
            skipped.append('`%s`' % f)  # not registered in policyverifiers.go:237-250, hence not in the model
            continue
        for c in cases:
            verifies.append('⟨%s, %s, %s, %s⟩' % (lstr(name + ': ' + c['name'][1]), ver[f], entry(c['policy']), b(c.get('errExpected'))))
    return merges, applies, verifies, skipped


HEAD = '''import Verif.Model.Policy
/-!
# The library's own tests of policy operators and verifiers, run on the model

Generated by `validation/gen_vectors.py` from the tables in `policyoperators_test.go` and `policyverifiers_test.go`. These are tests of the model, not proofs of properties: they show that the
model computes what the authors of the library expect of their code. Left out are the tests of verifiers that the library defines but does not register, and those with an empty
struct as value: %s.
-/

namespace Oidfed.Validation
open Oidfed

/-- A case of the tests of `Merge`. -/
structure MergeCase where
  name : String
  op : Op
  a : Val
  b : Val
  expected : Val
  err : Bool

/-- What the Go tests check: an error exactly if one is expected, otherwise `utils.SliceEqual` to what is expected. -/
def MergeCase.passes (c : MergeCase) : Bool :=
  match c.op.merge c.a c.b with
  | .error .error => c.err
  | .error .panic => false
  | .ok v => !c.err && sliceEqual c.expected v

/-- A case of the tests of `Apply`. -/
structure ApplyCase where
  name : String
  op : Op
  value : Val
  isSet : Bool
  policyValue : Val
  essential : Bool
  expected : Val
  err : Bool

/-- The same for `Apply`. -/
def ApplyCase.passes (c : ApplyCase) : Bool :=
  match c.op.apply ⟨c.value, c.isSet⟩ c.policyValue c.essential with
  | .error .error => c.err
  | .error .panic => false
  | .ok r => !c.err && sliceEqual c.expected r.v

/-- A case of the tests of verifiers. -/
structure VerifyCase where
  name : String
  verifier : Entry → Res Unit
  policy : Entry
  err : Bool

/-- An error exactly if one is expected. -/
def VerifyCase.passes (c : VerifyCase) : Bool :=
  match c.verifier c.policy with
  | .error .error => c.err
  | .error .panic => false
  | .ok _ => !c.err

'''

VHEAD = '''import Verif.Model.StmtJSON
/-!
# The metadata policy test vectors in the repository, run on the model

The vectors are those of `metadata-policy-test-vectors-2025-02-13.json`, translated by `validation/gen_vectors.py`. As in `TestApplyPolicies` and `TestMergeAndApplyMetadataPolicies`
(metadataPolicy_test.go:74-169) the policies are read from JSON, combined and applied to relying party metadata read from JSON. An error is fine if the vector has one; otherwise all attributes
have to be as in the expected metadata (nil and empty lists are not told apart, as in the JSON that the Go test compares). These are tests of the model, not proofs of properties.
-/

namespace Oidfed.Validation
open Oidfed

/-- A test vector. -/
structure TestVector where
  n : Nat
  ta : JV
  int : JV
  merged : Option JV
  metadata : JV
  resolved : JV
  err : Bool

/-- No vector has nested objects; they need not be told apart. -/
def numbering : Numbering := ⟨fun _ => 0, fun _ => 0⟩

def readPolicy (v : JV) : Option Policy := (decPolicy v).map (JPolicy.toPolicy numbering)

def readRP : JV → Option EntityMeta
  | .obj l => (readMeta (fun _ v => some v) rpFields rpPtrFields l).map (MStruct.toMeta numbering rpFields)
  | _ => none

def asWritten : Val → Val
  | .slice _ _ xs => .slice .any false xs
  | v => v

def sameAttributes (a b : EntityMeta) : Bool := a.fields.map (fun f => (f.tag, asWritten f.val)) == b.fields.map (fun f => (f.tag, asWritten f.val))

def TestVector.judge (v : TestVector) : Res EntityMeta → Bool
  | .error .panic => false
  | .error .error => v.err
  | .ok m => match readRP v.resolved with
    | none => false
    | some e => sameAttributes m e

/-- `TestMergeAndApplyMetadataPolicies` for this vector. -/
def TestVector.mergeAndApply (v : TestVector) : Bool :=
  match readPolicy v.ta, readPolicy v.int, readRP v.metadata with
  | some ta, some int, some m => v.judge (do
      let p ← combinePolicy ta int
      m.apply p)
  | _, _, _ => false

/-- `TestApplyPolicies` for this vector. -/
def TestVector.applyMerged (v : TestVector) : Bool :=
  match v.merged with
  | none => true
  | some mg =>
    match readPolicy mg, readRP v.metadata with
    | some p, some m => v.judge (m.apply p)
    | _, _ => false

end Oidfed.Validation
'''


def jv(v):
    if v is None:
        return '.null'
    if v is True:
        return '.bool true'
    if v is False:
        return '.bool false'
    if isinstance(v, int):
        return '.num %d' % v
    if isinstance(v, str):
        return '.str %s' % lstr(v)
    if isinstance(v, list):
        return '.arr [%s]' % ', '.join(jv(x) for x in v)
    return '.obj [%s]' % ', '.join('(%s, %s)' % (lstr(k), jv(x)) for k, x in v.items())


JHEAD = '''import Verif.Validation.Vectors
/-!
# The library's own tests of JSON encoding and decoding, run on the model

Generated by `validation/gen_vectors.py` from `metadata_test.go` and `entitystatement_test.go`: the JSON text is decoded, the result is encoded again and has to be the same JSON with all members in the same
order, and the attributes marked as set have to be those the test lists. These are tests of the model, not proofs of properties.
-/

namespace Oidfed.Validation
open Oidfed

mutual
/-- Equality of JSON, the order of members included. -/
def sameJson : JV → JV → Bool
  | .null, .null => true
  | .bool a, .bool b => a == b
  | .num a, .num b => a == b
  | .str a, .str b => a == b
  | .arr a, .arr b => sameList a b
  | .obj a, .obj b => sameMembers a b
  | _, _ => false
def sameList : List JV → List JV → Bool
  | [], [] => true
  | v :: l, w :: m => sameJson v w && sameList l m
  | _, _ => false
def sameMembers : List (String × JV) → List (String × JV) → Bool
  | [], [] => true
  | (k, v) :: l, (k', v') :: m => k == k' && sameJson v v' && sameMembers l m
  | _, _ => false
end

def sameSet (a b : List String) : Bool := a.all b.contains && b.all a.contains

/-- The same JSON is written again, and exactly the given attributes are marked as set; for entity types without an entry there is no metadata. -/
def metadataPasses (data : JObj) (wasSet : List (String × List String)) : Bool :=
  match readMetadata (fun _ v => some v) data with
  | none => false
  | some m => sameJson (metadataJV m) (.obj data) && EType.all.all (fun t =>
      match m.known t, wasSet.lookup t.tag with
      | none, none => true
      | some s, some l => sameSet s.wasSet l
      | _, _ => false)

/-- No statement in these tests has keys. -/
def noKeys : KeyCodec := ⟨fun _ => .null, fun _ => none⟩

def statementPasses (data : JObj) : Bool :=
  match ESPayload.read noKeys (fun _ v => some v) data with
  | none => false
  | some p => sameMembers (p.write noKeys) data

'''

TAGS = {'FederationEntity': 'federation_entity', 'OpenIDProvider': 'openid_provider', 'OpenIDRelyingParty': 'openid_relying_party',
        'OAuthAuthorizationServer': 'oauth_authorization_server', 'OAuthClient': 'oauth_client', 'OAuthProtectedResource': 'oauth_resource'}


def json_tests():
    with open(OUT + '/Json.lean', 'w') as o:
        o.write(JHEAD)
        for path, fn in (('metadata_test.go', 'metadata'), ('entitystatement_test.go', 'statement')):
            src = open(REPO + '/' + path).read()
            src = src[:src.index('func Test')]
            for part in re.split(r'\n\t"(?=[^\n]*": \{\n\t\tData:)', src)[1:]:
                name = part[:part.index('"')]
                text = re.search(r'\[\]byte\(`(.*?)`\)', part, re.S).group(1)
                data = json.loads(text)
                if data is None:
                    continue  # encoding of a nil any
                sets = ''
                if fn == 'metadata':
                    l = [(TAGS[t], re.findall(r'"(\w+)":\s*true', ws)) for t, ws in re.findall(r'&(\w+)Metadata\{.*?wasSet: map\[string\]bool\{(.*?)\}', part, re.S)]
                    assert len(l) == len(re.findall(r'&(\w+)Metadata\{', part))
                    sets = ' [%s]' % ', '.join('(%s, [%s])' % (lstr(t), ', '.join(lstr(x) for x in ws)) for t, ws in l)
                o.write('/-! %s -/\nset_option maxRecDepth 100000 in\nexample : %sPasses [%s]%s = true := by decide +kernel\n\n' % (
                    name, fn, jv(data)[len('.obj ['):-1], sets))
        o.write('/-! A statement with nothing in it -/\nset_option maxRecDepth 100000 in\n')
        o.write('example : sameMembers (ESPayload.write noKeys ⟨"", "", Time.zero, Time.zero, none, "", none, none, none, none, none, none, none, [], [], "", "", []⟩)\n')
        o.write('    [("exp", .num 0), ("iat", .num 0), ("iss", .str ""), ("jwks", .null), ("sub", .str "")] = true := by decide +kernel\n\nend Oidfed.Validation\n')


def main():
    os.makedirs(OUT, exist_ok=True)
    m, a, v, skipped = go_tests()
    print(len(m), 'merge', len(a), 'apply', len(v), 'verify', 'skipped', skipped)
    with open(OUT + '/GoTests.lean', 'w') as o:
        o.write(HEAD % ', '.join(dict.fromkeys(skipped)))
        for n, t, l, doc in (('mergeCases', 'MergeCase', m, 'Cases for `Merge` (policyoperators_test.go).'), ('applyCases', 'ApplyCase', a, 'Cases for `Apply` (policyoperators_test.go).'),
                             ('verifyCases', 'VerifyCase', v, 'Cases for verifiers (policyverifiers_test.go).')):
            o.write('/-- %s -/\ndef %s : List %s := [\n  %s]\n\n' % (doc, n, t, ',\n  '.join(l)))
        o.write('set_option maxRecDepth 10000 in\nexample : mergeCases.all MergeCase.passes = true := by decide +kernel\n\n')
        o.write('set_option maxRecDepth 10000 in\nexample : applyCases.all ApplyCase.passes = true := by decide +kernel\n\n')
        o.write('set_option maxRecDepth 10000 in\nexample : verifyCases.all VerifyCase.passes = true := by decide +kernel\n\nend Oidfed.Validation\n')
    json_tests()
    d = json.load(open(REPO + '/metadata-policy-test-vectors-2025-02-13.json'))
    open(OUT + '/Vectors.lean', 'w').write(VHEAD)
    size = 700
    for k in range(0, len(d), size):
        part = d[k:k + size]
        with open(OUT + '/Vectors%d.lean' % (k // size + 1), 'w') as o:
            o.write('import Verif.Validation.Vectors\n/-!\n# Metadata policy test vectors %d to %d\n\nGenerated by `validation/gen_vectors.py`.\n-/\n\nnamespace Oidfed.Validation\nopen Oidfed\n\n'
                    % (part[0]['n'], part[-1]['n']))
            name = 'vectors%d' % (k // size + 1)
            o.write('/-- The vectors. -/\ndef %s : List TestVector := [\n' % name)
            o.write(',\n'.join('  ⟨%d, %s, %s, %s, %s, %s, %s⟩' % (
                x['n'], jv(x.get('TA', {})), jv(x.get('INT', {})), 'some (%s)' % jv(x['merged']) if 'merged' in x else 'none', jv(x['metadata']), jv(x.get('resolved', {})),
                'true' if x.get('error') else 'false') for x in part))
            o.write(']\n\nset_option maxRecDepth 100000 in\nexample : %s.all (fun v => v.applyMerged && v.mergeAndApply) = true := by decide +kernel\n\nend Oidfed.Validation\n' % name)


main()
