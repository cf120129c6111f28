#!/usr/bin/env python3
"""Writes lean/Verif/Vectors/*.lean: the test tables of /repo as checked examples over the model."""
import glob, os, sys
sys.path.insert(0, os.path.dirname(os.path.abspath(__file__)))
import goparse
REPO = os.environ.get('REPO', '/repo')
DST = os.environ.get('DST', os.path.join(os.path.dirname(os.path.abspath(__file__)), '../lean/Verif/Vectors'))

class Skip(Exception): pass

NS = 1
CONST = {
 'nil': None, 'true': True, 'false': False,
 'MT': 0, 'MO': 1,
 'MtDeliver': 0, 'MtSubmit': 1, 'MtCommand': 2, 'MtReserved': 3,
 'SmsDeliver': 0, 'SmsDeliverReport': 1, 'SmsSubmitReport': 2, 'SmsSubmit': 3, 'SmsStatusReport': 4, 'SmsCommand': 5,
 'PiPID': 1, 'PiDCS': 2, 'PiUDL': 4,
 'VpfNotPresent': 0, 'VpfEnhanced': 1, 'VpfRelative': 2, 'VpfAbsolute': 3,
 'EvpfNotPresent': 0, 'EvpfRelative': 1, 'EvpfRelativeSeconds': 2, 'EvpfRelativeHHMMSS': 3,
 'Dcs7BitDefaultAlphabet': 0, 'Dcs8BitData': 4, 'DcsUCS2Data': 8,
 'Alpha7Bit': 0, 'Alpha8Bit': 1, 'AlphaUCS2': 2, 'AlphaReserved': 3,
 'MClass0': 0, 'MClass1': 1, 'MClass2': 2, 'MClass3': 3, 'MClassUnknown': 4,
 'TonInternational': 1, 'TonAlphanumeric': 5, 'NpISDN': 1,
 'FoUDHI': 0x40, 'FoRP': 0x80, 'FoSRR': 0x20, 'FoSRI': 0x20, 'FoSRQ': 0x20, 'FoRD': 0x04, 'FoMMS': 0x04, 'FoLP': 0x08,
 'time.Nanosecond': 1, 'time.Microsecond': 10**3, 'time.Millisecond': 10**6, 'time.Second': 10**9,
 'time.Minute': 60 * 10**9, 'time.Hour': 3600 * 10**9,
 'time.UTC': 0,
}
for i, m in enumerate('January February March April May June July August September October November December'.split()):
    CONST['time.' + m] = i + 1
for i, l in enumerate('Default Turkish Spanish Portuguese Bengali Gujaranti Hindi Kannada Malayalam Oriya Punjabi Tamil Telugu Urdu'.split()):
    CONST['charset.' + l] = i

class Env:
    def __init__(self, **kw): self.v = kw
    def get(self, n):
        if n in self.v: return self.v[n]
        if n in CONST: return CONST[n]
        if n.split('.')[-1] in CONST: return CONST[n.split('.')[-1]]
        raise Skip('name ' + n)

def ev(a, env):
    """value of a scalar expression"""
    k = a[0]
    if k == 'num': return a[1]
    if k == 'str': return a[1]
    if k == 'id': return env.get(a[1])
    if k == 'un':
        x = ev(a[2], env); return {'-': lambda: -x, '!': lambda: not x, '^': lambda: ~x, '&': lambda: x, '+': lambda: x}[a[1]]()
    if k == 'bin':
        x, y = ev(a[2], env), ev(a[3], env)
        return {'+': lambda: x + y, '-': lambda: x - y, '*': lambda: x * y, '|': lambda: x | y, '&': lambda: x & y,
                '<<': lambda: x << y, '>>': lambda: x >> y, '/': lambda: int(x / y), '&^': lambda: x & ~y}[a[1]]()
    if k == 'conv':
        v = ev(a[2], env)
        if a[1] == ('slice', ('name', 'rune')): return [ord(c) for c in v.decode()]
        return v
    if k == 'call':
        f = a[1][1] if a[1][0] == 'id' else None
        if f == 'time.FixedZone': return ev(a[2][1], env)
        if f == 'make': return bytes(ev(a[2][1], env))
        if f == 'bytes.Repeat': return ev(a[2][0], env) * ev(a[2][1], env)
        if f and len(a[2]) == 1: return ev(a[2][0], env)
    if k == 'lit' and a[1][0] == 'slice':
        if a[1][1][0] == 'name' and a[1][1][1] in ('byte', 'uint8'): return bytes(ev(v, env) & 255 for _, v in a[2])
        if a[1][1][0] == 'name' and a[1][1][1] == 'rune': return [ev(v, env) for _, v in a[2]]
        return [ev(v, env) for _, v in a[2]]
    if k == 'lit' and a[1] == ('name', 'UserData') or k == 'lit' and a[1] == ('name', 'tpdu.UserData'):
        return bytes(ev(v, env) & 255 for _, v in a[2])
    raise Skip('value %r' % (a,))

def lint(a, env): return '(%d)' % int(ev(a, env))
def lnat(a, env): return '%d' % int(ev(a, env))
def lu8(a, env): return '%d' % (int(ev(a, env)) & 255)
def lbool(a, env): return 'true' if ev(a, env) else 'false'
def bl(b): return '[' + ','.join(map(str, b or b'')) + ']'
def lbytes(a, env): return bl(ev(a, env))
def lrunes(a, env): return '[' + ','.join(map(str, ev(a, env) or [])) + ']'
def lstr(b): return '"%s"' % b.decode()
ALPHA = ['.a7Bit', '.a8Bit', '.ucs2', '.reserved']
def lalpha(a, env): return ALPHA[ev(a, env)]

def fields(a, names):
    """fields of a struct literal by name"""
    out = {}
    for i, (k, v) in enumerate(a[2]):
        out[k[1] if k else names[i]] = v
    return out

def deref(a):
    while a[0] == 'un' and a[1] == '&': a = a[2]
    return a
def resolve(a, env):
    a = deref(a)
    if a[0] == 'id' and a[1] in env.v and isinstance(env.v[a[1]], tuple): return resolve(env.v[a[1]], env)
    return a
def isnil(a): return a == ('id', 'nil')

def laddr(a, env):
    a = resolve(a, env)
    if a[0] == 'call': raise Skip('address call')
    f = fields(a, ['Address'] if a[1][1].endswith('SMSCAddress') else ['TOA', 'Addr'])
    if 'Address' in f: return laddr(f['Address'], env)
    return '{ TOA := %s, Addr := %s }' % (lu8(f['TOA'], env) if 'TOA' in f else '0', bl(ev(f['Addr'], env)) if 'Addr' in f else '[]')
def ltime(a, env):
    a = resolve(a, env)
    if a[0] == 'lit':
        f = fields(a, ['Time'])
        return ltime(f['Time'], env) if f else '{}'
    if a[0] == 'call' and a[1] == ('id', 'time.Date'):
        v = [ev(x, env) for x in a[2]]
        if v[6] != 0: raise Skip('nanoseconds')
        return 'GoTime.date %s' % ' '.join('(%d)' % x for x in v[:6] + v[7:])
    raise Skip('time %r' % (a,))
def lvp(a, env):
    a = resolve(a, env)
    if a[0] != 'lit': raise Skip('vp')
    f = fields(a, ['Format', 'Time', 'Duration', 'EFI'])
    conv = {'Format': lu8, 'Time': ltime, 'Duration': lint, 'EFI': lu8}
    return '{ ' + ', '.join('%s := %s' % (k, conv[k](v, env)) for k, v in f.items()) + ' }'
def lie(a, env):
    f = fields(resolve(a, env), ['ID', 'Data'])
    return '⟨%s, %s⟩' % (lu8(f['ID'], env) if 'ID' in f else '0', lbytes(f['Data'], env) if 'Data' in f else '[]')
def llist(f):
    def g(a, env):
        a = resolve(a, env)
        if isnil(a): return '[]'
        if a[0] == 'call' and len(a[2]) == 1: return g(a[2][0], env)
        if a[0] != 'lit': raise Skip('list %r' % (a,))
        return '[' + ', '.join(f(v, env) for _, v in a[2]) + ']'
    return g
ludh = llist(lie)
TF = {'Direction': lint, 'FirstOctet': lu8, 'OA': laddr, 'FCS': lu8, 'MR': lu8, 'CT': lu8, 'MN': lu8, 'DA': laddr, 'RA': laddr,
      'PI': lu8, 'SCTS': ltime, 'DT': ltime, 'ST': lu8, 'PID': lu8, 'DCS': lu8, 'VP': lvp, 'UDH': ludh, 'UD': lbytes}
def ltpdu(a, env):
    a = resolve(a, env)
    if a[0] != 'lit': raise Skip('tpdu %r' % (a,))
    f = fields(a, [])
    return '{ ' + ', '.join('%s := %s' % (k, TF[k](v, env)) for k, v in f.items()) + ' }'
def lopt(f):
    return lambda a, env: 'none' if isnil(a) else 'some ' + paren(f(a, env))
def paren(s): return s if s[0] in '[({⟨' or ' ' not in s else '(' + s + ')'

ERRID = {'ErrUnderflow': '.underflow', 'ErrOverlength': '.overlength', 'ErrInvalid': '.invalid', 'ErrMissing': '.missing',
         'ErrNonZero': '.nonZero', 'ErrOddUCS2Length': '.oddUCS2Length', 'semioctet.ErrMissingFill': '.semiMissingFill',
         'ucs2.ErrInvalidLength': '.ucs2InvalidLength', 'sms.ErrClosed': '.closed', 'sms.ErrDcsConflict': '.dcsConflict',
         'sms.ErrDuplicateSegment': '.duplicateSegment', 'sms.ErrReassemblyInconsistency': '.reassemblyInconsistency', 'io.EOF': '.eof', 'hex.ErrLength': '.hexOddLength'}
def lerr(a, env):
    a = resolve(a, env)
    if a[0] == 'id':
        return ERRID.get(a[1]) or ERRID[a[1].split('.')[-1]]
    if a[0] == 'call':
        f = a[1][1].split('.')[-1]; x = a[2]
        if f == 'ErrInvalidOctet': return '(.bcdInvalidOctet %s)' % lu8(x[0], env)
        if f == 'ErrInvalidInteger': return '(.bcdInvalidInteger %s)' % lint(x[0], env)
        if f == 'ErrInvalidDigit': return '(.semiInvalidDigit %s)' % lu8(x[0], env)
        if f == 'ErrInvalidSeptet': return '(.gsm7InvalidSeptet %s)' % lu8(x[0], env)
        if f == 'ErrInvalidUTF8': return '(.gsm7InvalidUTF8 %s)' % lnat(x[0], env)
        if f == 'ErrDanglingSurrogate': return '(.ucs2Dangling %s)' % lbytes(x[0], env)
        if f == 'InvalidByteError': return '(.hexInvalidByte %s)' % lu8(x[0], env)
        if f == 'ErrUnsupportedSmsType': return '(.unsupportedSmsType %s)' % lu8(x[0], env)
        if f in ('NewDecodeError',): return '(.decode %s %s %s)' % (lstr(ev(x[0], env)), lnat(x[1], env), lerr(x[2], env))
        if f in ('EncodeError',): return '(.encode %s %s)' % (lstr(ev(x[0], env)), lerr(x[1], env))
    if a[0] == 'lit' and a[1][1].endswith('DecodeError'):
        f = fields(a, ['Field', 'Offset', 'Err'])
        return '(.decode %s %s %s)' % (lstr(ev(f['Field'], env)), lnat(f['Offset'], env), lerr(f['Err'], env))
    if a[0] == 'conv': 
        pass
    raise Skip('error %r' % (a,))
loerr = lopt(lerr)
def res(err, ok, env):
    return '.error (.err %s)' % lerr(err, env) if not isnil(err) else '.ok ' + paren(ok)

def nlis(xs, env): return '[' + ', '.join(str(ev(x, env)) for x in xs) + ']'
def lcopt(a, env):
    """charset options of package tpdu and sms"""
    if a[0] == 'id' and a[1].endswith('WithAllCharsets'): return '.all'
    if a[0] == 'call':
        f = a[1][1].split('.')[-1]
        if f == 'WithCharset': return '.charset ' + nlis(a[2], env)
        if f == 'WithLockingCharset': return '.locking ' + nlis(a[2], env)
        if f == 'WithShiftCharset': return '.shift ' + nlis(a[2], env)
    raise Skip('charset option %r' % (a,))
def ltopt(a, env):
    if a[0] == 'call':
        f = a[1][1].split('.')[-1]
        if f == 'DCS': return '.dcs ' + lu8(a, env)
        if f == 'WithUDH': return '.udh ' + ludh(a[2][0], env)
        if f == 'WithDA': return '.da ' + laddr(a[2][0], env)
        if f == 'WithOA': return '.oa ' + laddr(a[2][0], env)
    if a[0] == 'id' and a[1].endswith(('SmsDeliver', 'SmsSubmit', 'SmsCommand')): return '.smsType ' + lint(a, env)
    raise Skip('tpdu option %r' % (a,))
def leopt(a, env):
    if a[0] == 'id' and a[1] in ('sms.AsSubmit', 'sms.AsDeliver', 'sms.As8Bit', 'sms.AsUCS2'): return 'Sms.' + a[1][4:]
    if a[0] == 'call':
        f = a[1][1]
        if f in ('sms.To', 'sms.From'): return 'Sms.%s %s' % (f[4:], lbytes(a[2][0], env))
        if f == 'sms.WithTemplateOption': return '.templateOption (%s)' % ltopt(a[2][0], env)
        if f == 'sms.WithTemplate': return '.template ' + ltpdu(a[2][0], env)
    return '.charsets (%s)' % lcopt(a, env)
def lsegcfg(a, env):
    if isnil(a): return '{}'
    out = []
    for _, o in a[2]:
        if o == ('id', 'tpdu.With16BitConcatRef'): out.append('wide := true'); continue
        if o[0] == 'call' and o[1][1] in ('tpdu.WithMR', 'tpdu.WithConcatRef'):
            c = deref(o[2][0]); n = ev(c[2][0][1], env)
            out.append('%s := some ⟨fun k => (k : Int) + %d, 0⟩' % ('mr' if o[1][1] == 'tpdu.WithMR' else 'cr', n + 1)); continue
        raise Skip('segmentation option %r' % (o,))
    return '{ ' + ', '.join(out) + ' }'
def lconcat(p, env):
    return 'some ⟨%s, %s, %s⟩' % (lnat(p['segments'], env), lnat(p['seqno'], env), lnat(p['mref'], env)) if ev(p['ok'], env) else 'none'

# (file, test function, variable, field names or None, list of functions from the row to a proposition)
B = 'name in out err'.split()
def m_bytes(fn): return lambda p, e: '%s %s = %s' % (fn, lbytes(p['in'], e), res(p['err'], lbytes(p['out'], e), e))
def rt(fn, conv=lu8, out=lint): return lambda p, e: '%s %s = %s' % (fn, conv(p['in'], e), res(p['err'], out(p['out'], e), e))
def semi_decode(p, e):
    n = len(ev(p['inDst'], e) or b'')
    if isnil(p['inDst']): n = 0
    r = '.error %s' % lerr(p['err'], e) if not isnil(p['err']) else '.ok ' + lbytes(p['out'], e)
    return 'Semioctet.Decode %d %s = .ok ⟨%s, %s⟩' % (n, lbytes(p['inSrc'], e), r, lnat(p['outReadCount'], e))
def pdu_out(p, e):
    if not isnil(p['err']): return '.error (.err %s)' % lerr(p['err'], e)
    return '.ok { SMSC := %s, TPDU := %s }' % (laddr(p['smsc'], e), lbytes(p['tpdu'], e))
def sms_decode_opts(p, e):
    a = p['options']
    if isnil(a): return '[]'
    out = []
    for _, o in a[2]:
        if o == ('id', 'sms.WithDefaultCharset'): out.append('.charset []')
        else: out.append(lcopt(o, e))
    return '[' + ', '.join(out) + ']'
def dirn_of(p, e):
    return 'MO' if not isnil(p['options']) and ('id', 'sms.AsMO') in [v for _, v in p['options'][2]] else 'MT'
def smsdecode(p, e):
    if not isnil(p['err']): ok = '.error (.err %s)' % lerr(p['err'], e)
    else: ok = '.ok ' + ltpdu(p['out'], e)
    return '(SmsDecode.decode %s %s %s).map (·.1) = %s' % (lbytes(p['pdu'], e), lbool(p['pm'], e), lbool(p['mo'], e), ok)
def count(p, e):
    o = p['out']; v = [ev(x, e) for _, x in o[2]]
    return 'SmsCounter.NewCount %s %s = %s' % (lbytes(p['msg'], e), lint(p['nli'], e),
        res(p['err'], '⟨"%s", %d, %d, %d, %d, %d⟩' % ((v[0].decode(),) + tuple(v[1:])), e))

T = 'encoding/tpdu/'
def charsets(p, e):
    n = ev(p['nli'], e)
    def pairs(a): return [(ev(x[2][0][1], e), ev(x[2][1][1], e)) for _, x in a[2]]
    lock, shift = pairs(p['lockingPatterns']), pairs(p['shiftPatterns'])
    ms, es, ed = (ev(p[k], e) for k in ('mapSize', 'extSize', 'extDuplicates'))
    # the Portuguese table of the repo has 38 entries, where its own test expects 37 (that test fails)
    if n == CONST['charset.Portuguese']: es = 38
    def check(fn, size, ps): return '((Charset.%s %d).length = %d ∧ ∀ p ∈ [%s], (Charset.%s %d).lookup p.1 = some p.2)' % (
        fn, n, size, ', '.join('(%d, %d)' % q for q in ps), fn, n)
    sw = lambda ps: [(b, a) for a, b in ps]
    return ' ∧\n    '.join([check('NewDecoder', ms, lock), check('NewExtDecoder', es, shift), check('NewEncoder', ms, sw(lock)), check('NewExtEncoder', es - ed, sw(shift))])
def collects(rows, e):
    """the patterns are collected in sequence"""
    ins = ['.collect ' + ltpdu(p['in'], e) for p in rows]
    outs = ['(%s, %s)' % (llist(lambda a, e: 'none' if isnil(a) else 'some ' + ltpdu(a, e))(p['out'], e), loerr(p['err'], e)) for p in rows]
    return ins, outs
SPEC = [
 ('Codecs', 'encoding/bcd/bcd_test.go', 'TestDecode', 'patterns', B, [rt('Bcd.Decode')]),
 ('Codecs', 'encoding/bcd/bcd_test.go', 'TestDecodeSigned', 'patterns', B, [rt('Bcd.DecodeSigned')]),
 ('Codecs', 'encoding/bcd/bcd_test.go', 'TestEncode', 'patterns', B, [rt('Bcd.Encode', lint, lu8)]),
 ('Codecs', 'encoding/bcd/bcd_test.go', 'TestEncodeSigned', 'patterns', B, [rt('Bcd.EncodeSigned', lint, lu8)]),
 ('Codecs', 'encoding/semioctet/semioctet_test.go', 'TestDecode', 'patterns', None, [semi_decode]),
 ('Codecs', 'encoding/semioctet/semioctet_test.go', 'TestEncode', 'patterns', None, [m_bytes('Semioctet.Encode')]),
 ('Codecs', 'encoding/gsm7/7bit_test.go', None, 'testPatterns', 'name padBits p u'.split(), [
   lambda p, e: 'Gsm7.Unpack7Bit %s %s = %s' % (lbytes(p['p'], e), lnat(p['padBits'], e), lbytes(p['u'], e)),
   lambda p, e: 'Gsm7.Pack7Bit %s %s = %s' % (lbytes(p['u'], e), lnat(p['padBits'], e), lbytes(p['p'], e))]),
 ('Codecs', 'encoding/gsm7/7bit_test.go', None, 'ussdTestPatterns', 'name padBits p u'.split(), [
   lambda p, e: 'Gsm7.Unpack7BitUSSD %s %s = .ok %s' % (lbytes(p['p'], e), lnat(p['padBits'], e), lbytes(p['u'], e)),
   lambda p, e: 'Gsm7.Pack7BitUSSD %s %s = .ok %s' % (lbytes(p['u'], e), lnat(p['padBits'], e), lbytes(p['p'], e))]),
 ('Codecs', 'encoding/ucs2/ucs2_test.go', 'TestDecode', 'patterns', B, [
   lambda p, e: '((Ucs2.Decode %s).runes, (Ucs2.Decode %s).err) = (%s, %s)' % (lbytes(p['in'], e), lbytes(p['in'], e), lrunes(p['out'], e), loerr(p['err'], e))]),
 ('Codecs', 'encoding/ucs2/ucs2_test.go', 'TestEncode', 'patterns', 'name in out'.split(), [
   lambda p, e: 'Ucs2.Encode %s = %s' % (lrunes(p['in'], e), lbytes(p['out'], e))]),
 ('Codecs', 'encoding/gsm7/gsm7_test.go', 'TestDecode', 'p', B, [lambda p, e: m_bytes('(Gsm7.NewDecoder []).Decode')(p, e)]),
 ('Codecs', 'encoding/gsm7/gsm7_test.go', 'TestDecoderWithCharset', 'p', B, [lambda p, e: m_bytes('(Gsm7.Decoder.Decode { Gsm7.NewDecoder [] with set := [(109, 77), (101, 69), (115, 83), (97, 65), (103, 71)] })')(p, e)]),
 ('Codecs', 'encoding/gsm7/gsm7_test.go', 'TestDecoderWithExtCharset', 'p', B, [lambda p, e: m_bytes('(Gsm7.Decoder.Decode { Gsm7.NewDecoder [] with ext := [(0x40, 81)] })')(p, e)]),
 ('Codecs', 'encoding/gsm7/gsm7_test.go', 'TestDecoderStrict', 'p', B, [lambda p, e: m_bytes('(Gsm7.Decoder.Decode { (Gsm7.NewDecoder []).Strict with set := [(109, 77), (101, 69), (115, 83), (97, 65), (103, 71)], ext := [(101, 69), (120, 88), (116, 84)] })')(p, e)]),
 ('Codecs', 'encoding/gsm7/gsm7_test.go', 'TestEncode', 'p', B, [lambda p, e: m_bytes('(Gsm7.NewEncoder []).Encode')(p, e)]),
 ('Codecs', 'encoding/gsm7/gsm7_test.go', 'TestEncoderWithCharset', 'p', B, [lambda p, e: m_bytes('(Gsm7.Encoder.Encode { Gsm7.NewEncoder [] with set := [(350, 0x40)] })')(p, e)]),
 ('Codecs', 'encoding/gsm7/gsm7_test.go', 'TestEncoderWithExtCharset', 'p', B, [lambda p, e: m_bytes('(Gsm7.Encoder.Encode { Gsm7.NewEncoder [] with ext := [(350, 0x40)] })')(p, e)]),
 ('Fields', T + 'address_test.go', 'TestAddressMarshalBinary', 'patterns', B, [rt('Address.MarshalBinary', laddr, lbytes)]),
 ('Fields', T + 'address_test.go', 'TestAddressUnmarshalBinary', 'patterns', 'name in out n err'.split(), [
   lambda p, e: 'Address.UnmarshalBinary %s = %s' % (lbytes(p['in'], e), res(p['err'], '(%s, %s)' % (laddr(p['out'], e), lnat(p['n'], e)), e))]),
 ('Fields', T + 'timestamp_test.go', 'TestMarhalBinary', 'patterns', B, [lambda p, e: 'Timestamp.MarshalBinary (%s) = %s' % (ltime(p['in'], e), res(p['err'], lbytes(p['out'], e), e))]),
 ('Fields', T + 'timestamp_test.go', 'TestUnmarhalBinary', 'patterns', None, [lambda p, e: 'Timestamp.UnmarshalBinary %s = %s' % (lbytes(p['in'], e), res(p['err'], ltime(p['out'], e), e))]),
 ('Fields', T + 'validityperiod_test.go', 'TestVPMarshalBinary', 'patterns', None, [rt('ValidityPeriod.MarshalBinary', lvp, lbytes)]),
 ('Fields', T + 'validityperiod_test.go', 'TestVPUnmarshalBinary', 'patterns', None, [
   lambda p, e: 'ValidityPeriod.UnmarshalBinary {} %s %s = %s' % (lbytes(p['in'], e), lu8(p['vpf'], e), res(p['err'], '(%s, %s)' % (lvp(p['out'], e), lnat(p['readCount'], e)), e))]),
 ('Fields', T + 'userdata_test.go', 'TestUserDataHeaderMarshalBinary', 'patterns', B, [
   lambda p, e: 'UDH.MarshalBinary %s = %s' % (ludh(p['in'], e), lbytes(p['out'], e))]),
 ('Fields', T + 'userdata_test.go', 'TestUserDataHeaderUnmarshalBinary', 'patterns', 'name in out n err'.split(), [
   lambda p, e: 'UDH.UnmarshalBinary %s = %s' % (lbytes(p['in'], e), res(p['err'], '(%s, %s)' % (ludh(p['out'], e), lnat(p['n'], e)), e))]),
 ('Fields', T + 'userdata_test.go', 'TestConcatInfo', 'patterns', None, [lambda p, e: 'UDH.ConcatInfo %s = %s' % (ludh(p['udh'], e), lconcat(p, e))]),
 ('Fields', T + 'userdata_test.go', 'TestConcatInfo8', 'patterns', None, [lambda p, e: 'UDH.ConcatInfo8 %s = %s' % (ludh(p['udh'], e), lconcat(p, e))]),
 ('Fields', T + 'userdata_test.go', 'TestConcatInfo16', 'patterns', None, [lambda p, e: 'UDH.ConcatInfo16 %s = %s' % (ludh(p['udh'], e), lconcat(p, e))]),
 ('Fields', T + 'userdata_test.go', 'TestDecodeUserData', 'patterns', None, [
   lambda p, e: 'DecodeUserData %s %s %s %s = ⟨%s, %s⟩' % (lbytes(p['ud'], e), ludh(p['udh'], e), lalpha(p['alpha'], e), llist(lcopt)(p['options'], e), lbytes(p['msg'], e), loerr(p['err'], e))]),
 ('Fields', T + 'userdata_test.go', 'TestDecodeUserDataAllCharsets', 'patterns', None, [
   lambda p, e: 'DecodeUserData %s %s .a7Bit %s = ⟨%s, %s⟩' % (lbytes(p['ud'], e), ludh(p['udh'], e), llist(lcopt)(p['options'], e), lbytes(p['msg'], e), loerr(p['err'], e))]),
 ('Fields', T + 'userdata_test.go', 'TestEncodeUserData', 'patterns', None, [
   lambda p, e: 'EncodeUserData %s %s = (%s, %s, %s)' % (lbytes(p['msg'], e), llist(lcopt)(p['options'], e), lbytes(p['ud'], e), ludh(p['udh'], e), lalpha(p['alpha'], e))]),
 ('Fields', T + 'dcs_test.go', 'TestDCSCompressed', 'patterns', None, [lambda p, e: 'DCS.Compressed %s = %s' % (lu8(p['in'], e), lbool(p['out'], e))]),
 ('Fields', T + 'firstoctet_test.go', 'TestFirstMTI', 'patterns', None, [lambda p, e: 'FirstOctet.MTI %s = %s' % (lu8(p['inout'], e), lu8(p['inout'], e))]),
 ('Fields', T + 'firstoctet_test.go', 'TestFirstOctetVPF', 'patterns', None, [lambda p, e: 'FirstOctet.VPF %s = %s' % (lu8(p['in'], e), lu8(p['out'], e))]),
 ('Fields', T + 'firstoctet_test.go', 'TestFirstWithMTI', 'patterns', None, [lambda p, e: 'FirstOctet.MTI (FirstOctet.WithMTI 0 %s) = %s' % (lu8(p['inout'], e), lu8(p['inout'], e))]),
 ('Fields', T + 'firstoctet_test.go', 'TestFirstOctetWithVPF', 'patterns', None, [lambda p, e: 'FirstOctet.VPF (FirstOctet.WithVPF 0 %s) = %s' % (lu8(p['inout'], e), lu8(p['inout'], e))]),
 ('Tpdu', T + 'tpdu_test.go', 'TestMarshalBinary', 'patterns', None, [lambda p, e: '(%s : TPDU).MarshalBinary = %s' % (ltpdu(p['in'], e), res(p['err'], lbytes(p['out'], e), e))]),
 ('Tpdu', T + 'tpdu_test.go', 'TestUnmarshalBinary', 'patterns', None, [lambda p, e: '({ Direction := %s } : TPDU).UnmarshalBinary %s = %s' % (lint(p['dirn'], e), lbytes(p['in'], e), res(p['err'], ltpdu(p['out'], e), e))]),
 ('Tpdu', T + 'tpdu_test.go', 'TestConcat', 'patterns', None, [lambda p, e: '(TPDU.New [.udh %s]).toOption.map TPDU.ConcatInfo = some (%s)' % (ludh(p['udh'], e), lconcat(p, e))]),
 ('Tpdu', T + 'tpdu_test.go', 'TestSmsType', 'patterns', None, [lambda p, e: '({ Direction := %s, FirstOctet := %s } : TPDU).SmsType = %s' % (lint(p['dirn'], e), lu8(p['mt'], e), lu8(p['st'], e))]),
 ('Tpdu', T + 'tpdu_test.go', 'TestSmsTypeString', 'patterns', None, [lambda p, e: 'smsTypeString %s = %s' % (lu8(p['st'], e), lstr(ev(p['out'], e)))]),
 ('Tpdu', T + 'tpdu_test.go', 'TestUDBlockSize', 'patterns', None, [lambda p, e: '(%s : TPDU).UDBlockSize = %s' % (ltpdu(p['pdu'], e), lint(p['out'], e))]),
 ('Tpdu', T + 'tpdu_test.go', 'TestSegment', 'patterns', None, [lambda p, e: '((%s : TPDU).Segment %s %s).map (·.pdus) = .ok %s' % (ltpdu(p['in'], e), lbytes(p['msg'], e), lsegcfg(p['options'], e), llist(ltpdu)(p['out'], e))]),
 ('Tpdu', T + 'tpdu_internal_test.go', 'TestDecodeUserData', 'patterns', None, [lambda p, e: '((%s : TPDU).decodeUserData %s).map (fun t => (t.UD, t.UDH)) = %s' % (ltpdu(p['inPDU'], e), lbytes(p['inSrc'], e), res(p['err'], '(%s, %s)' % (lbytes(p['outUD'], e), ludh(p['outUDH'], e)), e))]),
 ('Tpdu', T + 'tpdu_internal_test.go', 'TestEncodeUserData', 'patterns', None, [lambda p, e: '(%s : TPDU).encodeUserData = %s' % (ltpdu(p['in'], e), res(p['err'], lbytes(p['out'], e), e))]),
 ('Tpdu', T + 'tpdu_internal_test.go', 'TestChunk', 'patterns', None, [lambda p, e: 'chunk %s %s %s = .ok %s' % (lbytes(p['in'], e), lalpha(p['alpha'], e), lint(p['bs'], e), llist(lbytes)(p['out'], e))]),
 ('Tpdu', T + 'tpdu_internal_test.go', 'TestChunk7Bit', 'patterns', None, [lambda p, e: 'chunk7Bit %s %s = .ok %s' % (lbytes(p['in'], e), lint(p['bs'], e), llist(lbytes)(p['out'], e))]),
 ('Tpdu', T + 'tpdu_internal_test.go', 'TestChunk8Bit', 'patterns', None, [lambda p, e: 'chunk8Bit %s %s = .ok %s' % (lbytes(p['in'], e), lint(p['bs'], e), llist(lbytes)(p['out'], e))]),
 ('Tpdu', T + 'tpdu_internal_test.go', 'TestChunkUCS2', 'patterns', None, [lambda p, e: 'chunkUCS2 %s %s = .ok %s' % (lbytes(p['in'], e), lint(p['bs'], e), llist(lbytes)(p['out'], e))]),
 ('Sms', 'encoding/pdumode/smscaddress_test.go', 'TestSMSCAddressMarshalBinary', 'patterns', B, [rt('SMSCAddress.MarshalBinary', laddr, lbytes)]),
 ('Sms', 'encoding/pdumode/smscaddress_test.go', 'TestSMSCAddressUnmarshalBinary', 'patterns', 'name in out n err'.split(), [
   lambda p, e: 'SMSCAddress.UnmarshalBinary {} %s = %s' % (lbytes(p['in'], e), res(p['err'], '(%s, %s)' % (laddr(p['out'], e), lnat(p['n'], e)), e))]),
 ('Sms', 'encoding/pdumode/pdu_test.go', None, 'decodePatterns', 'name pdu smsc tpdu err'.split(), [
   lambda p, e: 'PDU.UnmarshalHexString %s = %s' % (lbytes(p['pdu'], e), pdu_out(p, e)),
   lambda p, e: 'PDU.UnmarshalBinary %s = %s' % (bl(bytes.fromhex(ev(p['pdu'], e).decode())), pdu_out(p, e))]),
 ('Sms', 'encoding/pdumode/pdu_test.go', 'TestMarshalBinary', 'patterns', 'name pdu smsc tpdu err'.split(), [
   lambda p, e: '({ SMSC := %s, TPDU := %s } : PDU).MarshalBinary = %s' % (laddr(p['smsc'], e), lbytes(p['tpdu'], e), res(p['err'], bl(bytes.fromhex(ev(p['pdu'], e).decode())), e))]),
 ('Sms', 'encoding/pdumode/pdu_test.go', 'TestMarshalHexString', 'patterns', 'name pdu smsc tpdu err'.split(), [
   lambda p, e: '({ SMSC := %s, TPDU := %s } : PDU).MarshalHexString = %s' % (laddr(p['smsc'], e), lbytes(p['tpdu'], e), res(p['err'], lbytes(p['pdu'], e), e))]),
 ('Sms', 'sms_test.go', 'TestDecode', 'patterns', None, [lambda p, e: 'Sms.Decode %s %s = %s' % (llist(ltpdu)(p['in'], e), sms_decode_opts(p, e), res(p['err'], lbytes(p['out'], e), e))]),
 ('Sms', 'sms_test.go', 'TestIsCompleteMessage', 'patterns', None, [lambda p, e: 'Sms.IsCompleteMessage %s = %s' % (llist(ltpdu)(p['in'], e), lbool(p['out'], e))]),
 ('Sms', 'sms_test.go', 'TestUnmarshal', 'patterns', None, [lambda p, e: 'Sms.Unmarshal %s %s = %s' % (lbytes(p['in'], e), dirn_of(p, e), res(p['err'], '' if isnil(p['out']) else ltpdu(p['out'], e), e))]),
 ('Sms', 'encode_test.go', 'TestNewEncoder', 'patterns', None, [
   lambda p, e: 'Sms.Encode %s %s = %s' % (lbytes(p['msg'], e), llist(leopt)(p['options'], e), res(p['err'], llist(ltpdu)(p['out'], e), e)),
   lambda p, e: '((Sms.NewEncoder [Sms.AsSubmit]).Encode %s %s).map (·.pdus) = %s' % (lbytes(p['msg'], e), llist(leopt)(p['options'], e), res(p['err'], llist(ltpdu)(p['out'], e), e))]),
 ('Sms', 'cmd/smscounter/smscounter_test.go', 'TestNewCount', 'patterns', None, [count]),
 ('Sms', 'cmd/smsdecode/smsdecode_test.go', 'TestDecode', 'patterns', None, [smsdecode]),
]

def localvars(path):
    """simple assignments `name := expr` and `name = []byte(..)` of a test file"""
    toks = goparse.tokenize(open(path).read()); out = {}
    for i in range(len(toks) - 1):
        if toks[i][1] in (':=', '=') and toks[i-1][0] == 'id':
            n = toks[i-1][1]
            if n in ('patterns', 'p', 'f', 'err', 'out', 'c', 'd', 'i', 'e', 't', 's', 'a', 'b', 'in'): continue
            P = goparse.P(toks); P.i = i + 1
            try: x = P.expr()
            except Exception: continue
            out.setdefault(n, x)
    return out

def types(path):
    """fields of the struct types declared in the test files of a package"""
    out = {}
    toks = [t for f in sorted(glob.glob(os.path.join(os.path.dirname(path), '*_test.go'))) for t in goparse.tokenize(open(f).read())]
    for i in range(len(toks) - 2):
        if toks[i][1] == 'type' and toks[i+2][1] == 'struct':
            P = goparse.P(toks); P.i = i + 2
            out[toks[i+1][1]] = P.type()[1]
    return out

def main():
    os.makedirs(DST, exist_ok=True)
    outs = {}; stats = []
    cache = {}
    for mod, path, fn, var, names, fs in SPEC:
        full = os.path.join(REPO, path)
        if full not in cache: cache[full] = (goparse.tables(full), localvars(full))
        tabs, loc = cache[full]
        if path == 'sms_test.go':
            loc = dict(loc); loc['twoSegmentMsg'] = localvars(os.path.join(REPO, 'encode_test.go'))['twoSegmentMsg']
        env = Env()
        for n, x in loc.items():
            try: env.v[n] = ev(x, env)
            except Exception: env.v[n] = x
        cand = [e for f, v, e in tabs if v == var and (fn is None or f == fn)]
        if not cand: print('no table', path, fn, var); continue
        lit = cand[0]
        ety = lit[1][1]
        nm = [n for n, _ in (ety[1] if ety[0] == 'struct' else types(full)[ety[1]])]
        L = outs.setdefault(mod, [])
        L.append('\n/-! %s, %s. -/\n' % (path, fn or var))
        ok = sk = 0
        for _, row in lit[2]:
            p = fields(row, nm)
            for n in nm: p.setdefault(n, ('id', 'nil'))
            name = None
            if 'name' in p: name = ev(p['name'], env).decode()
            for f in fs:
                try: s = f(p, env)
                except (Skip, ValueError, KeyError) as ex:
                    sk += 1; print('skip', path, fn, name, ex); continue
                ok += 1
                if name: L.append('-- %s' % name)
                L.append('example : %s := by decide +kernel' % s)
        stats.append((mod, path, fn or var, ok, sk))
    # encoding/gsm7/charset/charset_test.go
    full = os.path.join(REPO, 'encoding/gsm7/charset/charset_test.go')
    lit = [e for _, v, e in goparse.tables(full) if v == 'languageTests'][0]
    outs['Charsets'] = ['\n/-! encoding/gsm7/charset/charset_test.go, languageTests. -/\n']
    env = Env(); nm = 'nli mapSize extSize extDuplicates lockingPatterns shiftPatterns'.split()
    for _, row in lit[2]:
        if ev(fields(row, nm)['nli'], env) == CONST['charset.Portuguese']:
            outs['Charsets'].append('-- portuguese.go:9-48 has 38 entries; the test expects 37 and so fails in /repo')
        outs['Charsets'].append('example : %s := by decide +kernel' % charsets(fields(row, nm), env))
    stats.append(('Charsets', 'charset_test.go', 'languageTests', len(lit[2]), 0))
    # collect_test.go
    full = os.path.join(REPO, 'collect_test.go')
    tabs = [e for f, v, e in goparse.tables(full) if f == 'TestCollectorCollect' and v == 'patterns']
    nm = ['name', 'in', 'out', 'err']
    (i1, o1), (i2, o2) = [collects([fields(r, nm) for _, r in t[2]], env) for t in tabs]
    outs['Collect'] = ['''
/-- What `Collect` returned, for each call. -/
def returned (l : List Collector.Event) : Option (List (List (Option TPDU) × Option Err)) :=
  match Collector.run (Collector.New true true) l with
  | .ok (_, os) => some (os.filterMap fun o => match o with
    | .returned d e => some (d.map (·.map (·.pdu)), e)
    | _ => none)
  | .error _ => none

/-! collect_test.go, TestCollectorCollect. -/
''', 'example : returned [\n  %s,\n  .close,\n  %s] = some [\n  %s] := by decide +kernel' % (',\n  '.join(i1), ',\n  '.join(i2), ',\n  '.join(o1 + o2))]
    stats.append(('Collect', 'collect_test.go', 'TestCollectorCollect', len(i1) + len(i2), 0))
    tab = [e for f, v, e in goparse.tables(full) if f == 'TestCollectorPipes'][0]
    rows = [fields(r, ['name', 'in', 'm', 'out']) for _, r in tab[2]]
    outs['Collect'].append('''
/-- The segments held, by key. -/
def held (l : List Collector.Event) : Option (List (Bytes × List (Option TPDU))) :=
  match Collector.run (Collector.New false false) l with
  | .ok (s, _) => some ((Collector.Pipes s).map fun kp => (kp.1, (Collector.deref s kp.2).map (·.map (·.pdu))))
  | .error _ => none

/-! collect_test.go, TestCollectorPipes.  A Go map is compared: the order of the keys is immaterial. -/
''')
    for n in range(1, len(rows) + 1):
        ins = ', '.join('.collect ' + ltpdu(r['in'], env) for r in rows[:n])
        m = rows[n-1]['out']
        exp = ['(%s, %s)' % (bl(ev(k, env)), llist(lambda a, e: 'none' if isnil(a) else 'some ' + ltpdu(a, e))(v, env)) for k, v in m[2]]
        outs['Collect'].append('example : ∃ h, held [%s] = some h ∧ h.length = %d ∧ ∀ x ∈ ([%s] : List (Bytes × List (Option TPDU))), x ∈ h :=\n  ⟨_, rfl, by decide +kernel⟩' % (ins, len(exp), ', '.join(exp)))
    stats.append(('Collect', 'collect_test.go', 'TestCollectorPipes', len(rows), 0))
    for mod, L in outs.items():
        with open(os.path.join(DST, mod + '.lean'), 'w') as f:
            f.write('''import Verif.Model.Cmd
import Verif.Model.Counter

/-!
The test tables of /repo, evaluated in the model.  Generated by tools/gen_vectors.py; do not edit.  These are
tests of the model's faithfulness: no claim of the manifest rests on them.
-/

namespace Verif.Vectors
open Verif.Model
''')
            f.write('\n'.join(L) + '\n\nend Verif.Vectors\n')
    for s in stats: print(*s)
    print('total', sum(s[3] for s in stats), 'skipped', sum(s[4] for s in stats))
main()
