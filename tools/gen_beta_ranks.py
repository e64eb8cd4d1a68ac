"""Number of flavour indices of the SMEFT parameters."""
BOS = ('g gp gs Lambda m2 G Gtilde W Wtilde phi phiBox phiD phiG phiB phiW phiWB phiGtilde '
       'phiBtilde phiWtilde phiWtildeB').split()
TWO = ('Gu Gd Ge uphi dphi ephi eW eB uG uW uB dG dW dB phil1 phil3 phie phiq1 phiq3 phiu phid '
       'phiud llphiphi').split()
FOUR = ('ll qq1 qq3 lq1 lq3 ee uu dd eu ed ud1 ud8 le lu ld qe qu1 qd1 qu8 qd8 ledq quqd1 quqd8 '
        'lequ1 lequ3 duql qque qqql duue').split()
rank = {**{k: 0 for k in BOS}, **{k: 2 for k in TWO}, **{k: 4 for k in FOUR}}
