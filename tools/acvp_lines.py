import json, sys
n = int(sys.argv[1]) if len(sys.argv) > 1 else 3
D = '/repo/test/acvp_data/'
K = {'ML-KEM-512': 2, 'ML-KEM-768': 3, 'ML-KEM-1024': 4}
for g in json.load(open(D + 'acvp_keygen_internalProjection.json'))['testGroups']:
    for t in g['tests'][:n]:
        print('keygen', K[g['parameterSet']], t['d'], t['z'], t['ek'], t['dk'])
for g in json.load(open(D + 'acvp_encapDecap_internalProjection.json'))['testGroups']:
    for t in g['tests'][:n]:
        k = K[g['parameterSet']]
        if g['function'] == 'encapsulation':
            print('enc', k, t['ek'], t['m'], t['c'], t['k'])
        else:
            print('dec', k, g['dk'], t['c'], t['k'])
