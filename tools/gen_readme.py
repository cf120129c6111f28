#!/usr/bin/env python3
"""Writes lean/Verif/Vectors/Readme.lean: the samples of /repo/README.md and the tests of the String methods as
checked examples over the model."""
import os, re, shlex
REPO = os.environ.get('REPO', '/repo')
DST = os.path.join(os.path.dirname(os.path.abspath(__file__)), '../lean/Verif/Vectors/Readme.lean')

def bl(s):
    if isinstance(s, str): s = s.encode()
    return '[' + ', '.join(map(str, s)) + ']'

out = ['''import Verif.Model.Dump
import Verif.Model.CmdPrint

/-!
The samples of the commands in README.md and the tests of the `String` methods, evaluated in the model.  Generated by
tools/gen_readme.py; do not edit.  These are tests of the model's faithfulness: no claim of the manifest rests on
them.
-/

namespace Verif.Vectors
open Verif.Model
''']
n = 0
md = open(REPO + '/README.md').read()
for blk in re.findall(r'```shell\n(.*?)```', md, re.S):
    lines = blk.rstrip('\n').split('\n')
    cmd = shlex.split(lines[0].removeprefix('$ '))
    res = '\n'.join(lines[1:]) + '\n'
    if cmd[0] == 'smsdecode':
        pm, mo = '-p' in cmd, '-o' in cmd
        out.append('/-- `%s` -/\nexample : SmsDecode.text %s %s %s = .ok (.ok\n  %s) := by decide +kernel\n' % (
            ' '.join(cmd)[:100], bl(cmd[-1]), str(pm).lower(), str(mo).lower(), bl(res)))
        n += 1
    elif cmd[0] == 'smssubmit':
        a = dict(zip(cmd[1::2], cmd[2::2]))
        out.append('/-- `%s` -/\nexample : (SmsSubmit.main %s %s 0).map SmsSubmit.stdout = .ok\n  %s := by decide +kernel\n' % (
            ' '.join(cmd)[:100], bl(a['-number']), bl(a['-message']), bl(res)))
        n += 1
    elif cmd[0] == 'smsdeliver':
        out.append('/-- `%s` -/\nexample : (SmsDeliver.main %s [%s]).map (SmsDeliver.stdout fun _ _ => []) = .ok\n  %s := by decide +kernel\n' % (
            ' '.join(cmd)[:100], str('-p' in cmd).lower(), ',\n  '.join(bl(x) for x in cmd[1:] if x != '-p'), bl(res)))
        n += 1

def table(f, fn):
    s = open(REPO + '/encoding/tpdu/' + f).read()
    s = s[s.index('func ' + fn + '('):]
    return s[:s.index('\n}\n')]
def ev(x):
    return eval(re.sub(r'tpdu\.Pi(\w+)', lambda m: {'PID': '1', 'DCS': '2', 'UDL': '4'}[m[1]], x))
for f, fn, lean in [('validityperiod_test.go', 'TestVPFString', 'ValidityPeriodFormat.String'),
                    ('validityperiod_test.go', 'TestEVPFString', 'EnhancedValidityPeriodFormat.String'),
                    ('parameterindicator_test.go', 'TestParameterIndicatorString', 'PI.String'),
                    ('tpdu_test.go', 'TestMessageTypeString', 'MessageType.String'),
                    ('tpdu_test.go', 'TestSmsTypeString', 'SmsType.String'),
                    ('dcs_test.go', 'TestDCSString', 'DCS.String')]:
    out.append('/-! encoding/tpdu/%s, %s. -/\n' % (f, fn))
    for a, b in re.findall(r'\{([^{}]*), "([^"]*)"\}', table(f, fn)):
        out.append('example : %s %d = %s := by decide +kernel' % (lean, ev(a), bl(b))); n += 1
    out.append('')
out.append('/-! encoding/tpdu/timestamp_test.go, TestTimestampString. -/\n')
for a, z, b in re.findall(r'time\.Date\(([^()]*), time\.FixedZone\("\w+", (\d+)\)\),\s*"([^"]*)"', table('timestamp_test.go', 'TestTimestampString')):
    y, mo, d, h, mi, s, ns = [x.strip() for x in a.split(',')]
    out.append('example : Timestamp.String { GoTime.date %s %s %s %s %s %s %s with nsec := %s } = %s := by decide +kernel' % (y, mo, d, h, mi, s, z, ns, bl(b))); n += 1
out.append('\nend Verif.Vectors')
open(DST, 'w').write('\n'.join(out) + '\n')
print(n, 'rows')
