#!/usr/bin/env python3
"""Adds the results of tools/mutate.py, mutref.py and automut.py to seeded/LOG.jsonl. usage: mklog.py RESULTS.jsonl [more...]. A later result for
the same mutation replaces an earlier one; the notes below are added."""
import json, sys, os
T = {  # what was tightened after the attempt
 'trunc': ["C36_untouched (only asked for some text) replaced by C36_no_source and C36_no_output, which give the exact message and say no file changes"],
 'noupper': ["added C04_upper_case: the specification's upper-casing pinned down independently"],
 'underscore': ["added C03_letters, C03_name_characters: the specification's character classes pinned down independently"],
 'hexlow': ["added C01_digits: digit values of the specification pinned down independently"],
 'linenum': ["added C29_decimal, C29_hex: the printed numbers pinned down independently of the model's printing functions"],
 'jsrmask': ["C14_exact_opcode added: exactly which jumps get an undocumented opcode, instead of a single counterexample"],
 'noff2': ["C16_branch_determine_partial added, so that the branch offset byte determines the target"],
 'mem_symok': ["C43_success_is_real added: success implies that no request was refused"],
}
N = {
 'mem_keepold': "A fix, not a bug: it makes the counterexample theorem C44_realloc_leaks false, as it should.",
 'mem_arrnonefree': "A fix, not a bug: it makes the counterexample theorem C44_realloc_leaks false, as it should.",
 'hash': "Equivalent program: the hash seed is not observable. Property theorems are true of it; only lemmas or examples mentioning the seed may fail.",
 'branchgen': "Equivalent program (same bytes by another path): the refinement lemma that follows the code fails to replay, no property becomes false.",
 'pt_noclear': "Not visible on the corpus: the field is overwritten before it is read. The simulation that follows the code fails to replay.",
 'pt_noresettext': "Not visible on the corpus: the text is overwritten before it is read. The simulation that follows the code fails to replay.",
 'pt_reset7': "Not visible on the corpus (needs eight tokens in a line after a shorter one whose use shows the stale slot).",
 'noresetval': "Not visible on the corpus: the value is overwritten before it is used.",
 'tabreset': "Not visible on the corpus.",
 'trunc': "Not visible on the corpus, which only has files that can be created; C36 speaks of the others and no longer proves.",
 'mem_oomgoes': "Claim broken is C42/C43 (memory), not C24: the memory model's own array.",
}
T.update({
 'r6_zerofirst': ["added C55_bytes_any: C55 for any text had no theorem about the bytes left (C55_bytes is about the documented language)"],
})
N.update({
 'r6_plus': "The plus sign itself is still refused, so no claim breaks.",
 'r6_zerofirst': "Before C55_bytes_any the theorems of C55 for any text survived this bug (see theorems_tightened).",
})
N.update({
 'auto_Parser_6294': "Equivalent program: the value is an int that is not negative there, so the modulus is not reached.",
 'auto_Parser_8001': "Equivalent program: only asked for lines with a mnemonic.",
 'auto_Parser_8132': "Equivalent program: only asked for lines with a mnemonic.",
 'auto_Lexer_1462': "Equivalent program: the line number is set by lex_line before it is read.",
 'auto_SymTab_832': "Equivalent program: labels consist of ASCII characters, and the hash function cannot be observed (C75).",
})
for x in ('r10_f3', 'r10_f3len', 'r10_nof3'): N[x] = "The claims that still prove are about the documented language, which has no indexed jumps."
for x in ('r10_org1', 'r10_orgnop'): N[x] = "The claims that still prove do not go over the reference assembler; the same bug in the two-pass assembler: s11_org1, s11_orgignored."
N['s11_orgmax'] = "C81_only, C81_any_source and C81_indexed are proved over the reference assembler and stay as they are; C79_needs is a computed example of it."
log = os.path.join(os.path.dirname(__file__), '..', 'seeded', 'LOG.jsonl')
entries = {}
if os.path.exists(log):
    for l in open(log):
        d = json.loads(l); entries[d['name']] = d
def of_mutate(d):
    claims = [c for c in d['claim'] if c != 'EQUIV']
    if d['name'] == 'mem_oomgoes': claims = ['C42', 'C43']
    return dict(name=d['name'], definition=d['definition'], edit=d['edit'], claim=claims,
                theorems_failed=sorted(x for v in d['direct'].values() for x in v),
                properties_no_longer_proved=[x.split('.')[-1] for x in list(d['direct']) + d['blocked'] if '.Props.' in x],
                claims_still_proving=[x for x in d['still'] if x[:3] in claims],
                observed_difference=d['diff'][:1], programs_differing=d['ndiff'])
def of_mutref(d):
    return dict(name=d['name'], method='mutref', definition=d['definition'], edit=d['edit'], claim=d['claim'],
                theorems_failed=sorted(x.split(':')[-1] for x in d['failed'] if not x.endswith(':example')),
                theorems_no_longer_proved=d['lost'], claims_still_proving=d['still'])
def of_auto(d):
    return dict(name='auto_%s_%d' % (d['file'], d['pos']), method='automut', definition=d['definition'],
                edit='%s.lean:%d: %s becomes %s, in: %s' % (d['file'], d['line'], d['old'], d['new'], d['context'].replace('\n', ' / ')), claim=[],
                outcome=d['outcome'], theorems_failed=[d['theorem']] if d.get('theorem') else [], module=d.get('module'))
A = {  # automut survivors: what was done
 'Base:code': ["added C65_codes: the numbers of the return codes are pinned down"],
}
for f in sys.argv[1:]:
    for l in open(f):
        d = json.loads(l)
        if d.get('outcome') == 'does not compile': continue
        e = of_auto(d) if 'outcome' in d else of_mutref(d) if 'lost' in d else of_mutate(d)
        e['theorems_tightened'] = T.get(e['name'], [])
        if 'outcome' in d and d['outcome'] == 'survived': e['theorems_tightened'] = A.get(d['file'] + ':' + d['definition'].split('.')[-1], [])
        if e['name'] in N: e['note'] = N[e['name']]
        entries[e['name']] = e
with open(log, 'w') as o:
    for e in entries.values(): o.write(json.dumps(e) + '\n')
print(len(entries))
