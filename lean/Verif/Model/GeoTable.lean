import Verif.Py.Str
/-
GENERATED by tools/gen_geo.py from /repo/spec2nexus/diffractometer-geometries.dict and
/repo/spec2nexus/diffractometers.py:50-88 (DEFAULT_U).  The pairs (key, description) of the source are
two lists: `G` and `Gd`, `Q` and `Qd`, `U` and `Ud`.
-/
namespace S2N

/-- one entry of `geometry["variations"]` -/
structure Variation where
  name : Str
  motors : List Str
  others : List Str
  deriving DecidableEq, Repr

/-- one geometry of the catalog -/
structure Geometry where
  name : Str
  G : List Str
  Gd : List Str
  Q : List Str
  Qd : List Str
  U : Option (List Str)
  Ud : Option (List Str)
  modes : List Str
  numgeo : Nat
  variations : List Variation
  deriving DecidableEq, Repr

/-- `DEFAULT_U` keys — diffractometers.py:53-90 -/
def defaultU : List Str := [p!"g_aa", p!"g_bb", p!"g_cc", p!"g_al", p!"g_be", p!"g_ga", p!"g_aa_s",
      p!"g_bb_s", p!"g_cc_s", p!"g_al_s", p!"g_be_s", p!"g_ga_s", p!"g_h0", p!"g_k0", p!"g_l0",
      p!"g_h1", p!"g_k1", p!"g_l1", p!"g_u00", p!"g_u01", p!"g_u02", p!"g_u03", p!"g_u04",
      p!"g_u05", p!"g_u10", p!"g_u11", p!"g_u12", p!"g_u13", p!"g_u14", p!"g_u15", p!"g_lambda0",
      p!"g_lambda1", p!"g_u06", p!"g_u16"]

/-- `DEFAULT_U` descriptions — diffractometers.py:53-90 -/
def defaultUd : List Str := [p!"a lattice constant (real space)", p!"b lattice constant (real space)",
      p!"c lattice constant (real space)", p!"alpha lattice angle (real space)",
      p!"beta  lattice angle (real space)", p!"gamma lattice angle (real space)",
      p!"a lattice constant (reciprocal space)", p!"b lattice constant (reciprocal space)",
      p!"c lattice constant (reciprocal space)", p!"alpha lattice angle (reciprocal space)",
      p!"beta  lattice angle (reciprocal space)", p!"gamma lattice angle (reciprocal space)",
      p!"H of primary reflection", p!"K of primary reflection", p!"L of primary reflection",
      p!"H of secondary reflection", p!"K of secondary reflection", p!"L of secondary reflection",
      p!"angle 0 of primary reflection", p!"angle 1 of primary reflection",
      p!"angle 2 of primary reflection", p!"angle 3 of primary reflection",
      p!"angle 4 of primary reflection", p!"angle 5 of primary reflection",
      p!"angle 0 of secondary reflection", p!"angle 1 of secondary reflection",
      p!"angle 2 of secondary reflection", p!"angle 3 of secondary reflection",
      p!"angle 4 of secondary reflection", p!"angle 5 of secondary reflection",
      p!"lambda when or0 was set", p!"lambda when or1 was set",
      p!"optional, angle 6 of primary reflection", p!"optional, angle 6 of secondary reflection"]

/-- geometry 0 of diffractometer-geometries.dict: spec -/
def geo0 : Geometry where
  name := p!"spec"
  G := []
  Gd := []
  Q := []
  Qd := []
  U := none
  Ud := none
  modes := []
  numgeo := 0
  variations := [⟨p!"default", [], []⟩]

/-- geometry 1 of diffractometer-geometries.dict: fivec -/
def geo1 : Geometry where
  name := p!"fivec"
  G := [p!"g_mode", p!"g_sect", p!"g_frz", p!"g_haz", p!"g_kaz", p!"g_laz", p!"g_zh0",
      p!"g_zk0", p!"g_zl0", p!"g_zh1", p!"g_zk1", p!"g_zl1", p!"g_kappa", p!"g_config"]
  Gd := [p!"spectrometer mode", p!"sector", p!"freeze", p!"H azimuthal reference",
      p!"K azimuthal reference", p!"L azimuthal reference", p!"H zone vec 0", p!"K zone vec 0",
      p!"L zone vec 0", p!"H zone vec 1", p!"K zone vec 1", p!"L zone vec 1",
      p!"kappa tilt angle", p!"0 for default configuration, 1 for the other"]
  Q := [p!"H", p!"K", p!"L", p!"LAMBDA", p!"ALPHA", p!"BETA", p!"OMEGA", p!"TTH",
      p!"AZIMUTH", p!"F_ALPHA", p!"F_BETA", p!"F_OMEGA", p!"F_AZIMUTH", p!"F_PHI", p!"F_CHI_Z",
      p!"F_PHI_Z", p!"F_MU", p!"CUT_AZI", p!"CUT_DEL", p!"CUT_TH", p!"CUT_CHI", p!"CUT_PHI",
      p!"CUT_MU", p!"CUT_KTH", p!"CUT_KAP", p!"CUT_KPHI"]
  Qd := [p!"1st Miller index", p!"2nd Miller index", p!"3rd Miller index",
      p!"wavelength, Angstrom", p!"", p!"", p!"", p!"", p!"", p!"Frozen values", p!"", p!"", p!"",
      p!"", p!"", p!"", p!"", p!"azimuthal cut-point flag", p!"", p!"", p!"", p!"", p!"", p!"",
      p!"", p!""]
  U := none
  Ud := none
  modes := [p!"Omega fixed (four circle, Mu = 0)", p!"Phi fixed (four circle, Mu = 0)",
      p!"Zone (four circle, Mu = 0)", p!"Azimuth and Mu fixed", p!"Alpha and Mu fixed",
      p!"Beta and Mu fixed", p!"Azimuth fixed, Mu varies", p!"Alpha fixed, Mu varies",
      p!"Beta fixed, Mu varies", p!"Specular"]
  numgeo := 5
  variations := [⟨p!"default", [p!"del", p!"th", p!"chi", p!"phi", p!"mu"], []⟩,
    ⟨p!"kappa", [p!"del", p!"th", p!"chi", p!"phi", p!"mu", p!"kth", p!"kap", p!"kphi"], []⟩]

/-- geometry 2 of diffractometer-geometries.dict: fourc -/
def geo2 : Geometry where
  name := p!"fourc"
  G := [p!"g_mode", p!"g_sect", p!"g_frz", p!"g_haz", p!"g_kaz", p!"g_laz", p!"g_zh0",
      p!"g_zk0", p!"g_zl0", p!"g_zh1", p!"g_zk1", p!"g_zl1", p!"g_kappa", p!"g_vmode",
      p!"g_picker", p!"g_omsect", p!"g_mon_sam_len", p!"g_sam_ana_len", p!"g_ana_det_len",
      p!"g_mon_sign", p!"g_sam_sign", p!"g_ana_sign", p!"g_mon_d", p!"g_ana_d", p!"g_inci_offset",
      p!"g_xtalogic_d1", p!"g_xtalogic_d2"]
  Gd := [p!"spectrometer mode", p!"sector", p!"freeze", p!"h azimuthal reference",
      p!"k azimuthal reference", p!"l azimuthal reference", p!"h zone vec 0", p!"k zone vec 0",
      p!"l zone vec 0", p!"h zone vec 1", p!"k zone vec 1", p!"l zone vec 1",
      p!"angle of kappa tilt (in degrees)", p!"set if vertical mode", p!"picker-mode factor",
      p!"omega-mode sector flag", p!"", p!"", p!"", p!"", p!"", p!"", p!"", p!"", p!"", p!"",
      p!""]
  Q := [p!"H", p!"K", p!"L", p!"LAMBDA", p!"ALPHA", p!"BETA", p!"OMEGA", p!"AZIMUTH",
      p!"F_ALPHA", p!"F_BETA", p!"F_OMEGA", p!"F_AZIMUTH", p!"F_PHI", p!"F_CHI_Z", p!"F_PHI_Z",
      p!"CUT_AZI", p!"CUT_TTH", p!"CUT_TH", p!"CUT_CHI", p!"CUT_PHI", p!"CUT_KTH", p!"CUT_KAP",
      p!"CUT_KPHI", p!"CUT_CHIR", p!"CUT_PHIR", p!"F_THETA"]
  Qd := [p!"1st Miller index", p!"2nd Miller index", p!"3rd Miller index",
      p!"wavelength, Angstrom", p!"", p!"", p!"", p!"", p!"Frozen values", p!"", p!"", p!"", p!"",
      p!"", p!"", p!"azimuthal cut-point flag", p!"two-theta cut point",
      p!"theta/omega cut point", p!"chi cut point", p!"phi cut point", p!"theta cut point",
      p!"kap cut point", p!"phi cut point", p!"chiR cut point", p!"phiR cut point", p!""]
  U := none
  Ud := none
  modes := [p!"Omega equals zero", p!"Omega fixed", p!"Zone (Chi and Phi fixed)",
      p!"Phi fixed (Three-circle)", p!"Azimuth fixed", p!"Alpha fixed", p!"Beta fixed",
      p!"Theta fixed"]
  numgeo := 4
  variations := [⟨p!"default", [p!"tth", p!"th", p!"chi", p!"phi"], []⟩,
    ⟨p!"kappa", [p!"tth", p!"om", p!"chi", p!"phi", p!"kth", p!"kap", p!"kphi"], []⟩,
    ⟨p!"omega", [p!"tth", p!"om", p!"chi", p!"phi"], []⟩,
    ⟨p!"picker", [p!"tth", p!"th", p!"chi", p!"phi"], [p!"chiR", p!"phiR"]⟩,
    ⟨p!"3axis", [p!"tth", p!"th", p!"chi", p!"phi"], [p!"thR", p!"tthR", p!"sy", p!"ay", p!"dy", p!"mth", p!"ath"]⟩,
    ⟨p!"xtalogic", [p!"tth", p!"om", p!"chi", p!"phi", p!"kth", p!"kap", p!"kphi"], [p!"xlhgt"]⟩]

/-- geometry 3 of diffractometer-geometries.dict: oscam -/
def geo3 : Geometry where
  name := p!"oscam"
  G := []
  Gd := []
  Q := [p!"SETSPEED", p!"USERSPEED", p!"EXPOSURE_TIME", p!"LAMBDA", p!"N_OSC",
      p!"OSC_RANGE", p!"MAXSPEED", p!"MINSPEED"]
  Qd := [p!"", p!"", p!"", p!"wavelength, Angstrom", p!"", p!"", p!"", p!""]
  U := none
  Ud := none
  modes := []
  numgeo := 0
  variations := [⟨p!"default", [], []⟩]

/-- geometry 4 of diffractometer-geometries.dict: pi1go -/
def geo4 : Geometry where
  name := p!"pi1go"
  G := [p!"g_mode"]
  Gd := [p!"spectrometer mode"]
  Q := [p!"H", p!"K", p!"L", p!"LAMBDA", p!"TWO_THETA", p!"BETA", p!"CUT_GAM",
      p!"CUT_OME", p!"CUT_ALF"]
  Qd := [p!"1st Miller index", p!"2nd Miller index", p!"3rd Miller index",
      p!"wavelength, Angstrom", p!"", p!"", p!"", p!"", p!""]
  U := none
  Ud := none
  modes := []
  numgeo := 3
  variations := [⟨p!"default", [p!"ome", p!"alf", p!"gam"], []⟩]

/-- geometry 5 of diffractometer-geometries.dict: psic -/
def geo5 : Geometry where
  name := p!"psic"
  G := [p!"g_prefer", p!"g_sect", p!"g_frz", p!"g_haz", p!"g_kaz", p!"g_laz", p!"g_zh0",
      p!"g_zk0", p!"g_zl0", p!"g_zh1", p!"g_zk1", p!"g_zl1", p!"g_kappa", p!"g_sigtau",
      p!"g_mode1", p!"g_mode2", p!"g_mode3", p!"g_mode4", p!"g_mode5", p!"g_use_daz"]
  Gd := [p!"sector preference scheme", p!"sector", p!"freeze", p!"azimuthal reference",
      p!"", p!"", p!"zone vec 0", p!"", p!"", p!"zone vec 1", p!"", p!"", p!"kappa angle",
      p!"set if sig-tau take precdence over azi HKL", p!"spectrometer mode",
      p!"spectrometer mode", p!"spectrometer mode", p!"spectrometer mode", p!"spectrometer mode",
      p!"if set, calculate detector-slit azimuthal rotation"]
  Q := [p!"H", p!"K", p!"L", p!"LAMBDA", p!"ALPHA", p!"BETA", p!"OMEGA", p!"TTH",
      p!"PSI", p!"TAU", p!"QAZ", p!"NAZ", p!"SIGMA_AZ", p!"TAU_AZ", p!"F_ALPHA", p!"F_BETA",
      p!"F_OMEGA", p!"F_PSI", p!"F_NAZ", p!"F_QAZ", p!"F_DEL", p!"F_ETA", p!"F_CHI", p!"F_PHI",
      p!"F_NU", p!"F_MU", p!"F_CHI_Z", p!"F_PHI_Z", p!"CUT_DEL", p!"CUT_ETA", p!"CUT_CHI",
      p!"CUT_PHI", p!"CUT_NU", p!"CUT_MU", p!"CUT_KETA", p!"CUT_KAP", p!"CUT_KPHI"]
  Qd := [p!"1st Miller index", p!"2nd Miller index", p!"3rd Miller index",
      p!"wavelength, Angstrom", p!"", p!"", p!"", p!"", p!"", p!"", p!"", p!"", p!"", p!"",
      p!"Frozen values", p!"", p!"", p!"", p!"", p!"", p!"", p!"", p!"", p!"", p!"", p!"", p!"",
      p!"", p!"cut points", p!"", p!"", p!"", p!"", p!"", p!"", p!"", p!""]
  U := none
  Ud := none
  modes := []
  numgeo := 6
  variations := [⟨p!"default", [p!"del", p!"eta", p!"chi", p!"phi", p!"nu", p!"mu"], []⟩,
    ⟨p!"kappa", [p!"del", p!"eta", p!"kap", p!"keta", p!"kphi"], []⟩,
    ⟨p!"+daz", [p!"del", p!"eta", p!"chi", p!"phi", p!"nu", p!"mu", p!"daz"], []⟩,
    ⟨p!"s2d2", [p!"del", p!"eta", p!"nu", p!"mu"], []⟩,
    ⟨p!"s2d2+daz", [p!"del", p!"eta", p!"nu", p!"mu", p!"daz"], []⟩]

/-- geometry 6 of diffractometer-geometries.dict: s1d2 -/
def geo6 : Geometry where
  name := p!"s1d2"
  G := [p!"g_len", p!"g_track"]
  Gd := [p!"distance from sample to tau when tau = 0",
      p!"set if tracking tauR and tauT with tau"]
  Q := [p!"H", p!"K", p!"L", p!"LAMBDA", p!"TTH", p!"CUT_OME", p!"CUT_SIG", p!"CUT_TAU"]
  Qd := [p!"1st Miller index", p!"2nd Miller index", p!"3rd Miller index",
      p!"wavelength, Angstrom", p!"", p!"", p!"", p!""]
  U := none
  Ud := none
  modes := []
  numgeo := 3
  variations := [⟨p!"default", [p!"ome", p!"sig", p!"tau"], []⟩]

/-- geometry 7 of diffractometer-geometries.dict: s2d2 -/
def geo7 : Geometry where
  name := p!"s2d2"
  G := [p!"g_mode", p!"g_sect", p!"g_frz", p!"g_haz", p!"g_kaz", p!"g_laz"]
  Gd := [p!"spectrometer mode", p!"sector", p!"freeze", p!"azimuthal reference", p!"",
      p!""]
  Q := [p!"H", p!"K", p!"L", p!"LAMBDA", p!"ALPHA", p!"BETA", p!"TWO_THETA", p!"AZIMUTH",
      p!"EPSILON", p!"F_ALPHA", p!"F_BETA", p!"F_PHI", p!"ETA", p!"CUT_GAM", p!"CUT_DEL",
      p!"CUT_CHI", p!"CUT_PHI"]
  Qd := [p!"1st Miller index", p!"2nd Miller index", p!"3rd Miller index",
      p!"wavelength, Angstrom", p!"", p!"", p!"", p!"", p!"", p!"", p!"", p!"", p!"", p!"", p!"",
      p!"", p!""]
  U := none
  Ud := none
  modes := []
  numgeo := 4
  variations := [⟨p!"default", [p!"gam", p!"del", p!"chi", p!"phi"], []⟩]

/-- geometry 8 of diffractometer-geometries.dict: sevc -/
def geo8 : Geometry where
  name := p!"sevc"
  G := [p!"g_mode", p!"g_sect", p!"g_frz", p!"g_haz", p!"g_kaz", p!"g_laz", p!"g_len",
      p!"g_zrot_p", p!"g_NU_p", p!"g_track", p!"g_sigtau"]
  Gd := [p!"sector preference scheme", p!"", p!"freeze", p!"azimuthal reference", p!"",
      p!"", p!"g_len  del arm length", p!"g_zrot_p true if CCW z rotations positive",
      p!"g_NU_p true to choose positive c_angle[Nu] values",
      p!"g_track true when delR, delT tracked with del", p!"set if sigtau set before azref"]
  Q := [p!"H", p!"K", p!"L", p!"LAMBDA", p!"ALPHA", p!"BETA", p!"TTH", p!"POL",
      p!"SIGMA", p!"TAU", p!"F_ALPHA", p!"F_BETA", p!"F_RHO", p!"F_MU", p!"F_CHI", p!"F_PHI",
      p!"CUT_RHO", p!"CUT_NU", p!"CUT_DEL", p!"CUT_MU", p!"CUT_ETA", p!"CUT_CHI", p!"CUT_PHI"]
  Qd := [p!"1st Miller index", p!"2nd Miller index", p!"3rd Miller index",
      p!"wavelength, Angstrom", p!"", p!"", p!"", p!"", p!"", p!"", p!"Frozen values", p!"", p!"",
      p!"", p!"", p!"", p!"cut points", p!"", p!"", p!"", p!"", p!"", p!""]
  U := none
  Ud := none
  modes := [p!"Alpha fixed, surface normal in vertical plane",
      p!"Beta fixed, surface normal in vertical plane",
      p!"Alpha = Beta, surface normal in vertical plane",
      p!"Phi fixed, surface normal in vertical plane", p!"Alpha fixed, Chi fixed",
      p!"Beta fixed, Chi fixed", p!"Alpha = Beta, Chi fixed", p!"Phi fixed, Chi fixed"]
  numgeo := 7
  variations := [⟨p!"default", [p!"rho", p!"nu", p!"del", p!"mu", p!"eta", p!"chi", p!"phi"], []⟩]

/-- geometry 9 of diffractometer-geometries.dict: sixc -/
def geo9 : Geometry where
  name := p!"sixc"
  G := [p!"g_mode", p!"g_sect", p!"g_frz", p!"g_haz", p!"g_kaz", p!"g_laz", p!"g_zh0",
      p!"g_zk0", p!"g_zl0", p!"g_zh1", p!"g_zk1", p!"g_zl1", p!"g_len", p!"g_config", p!"g_track",
      p!"g_sigtau", p!"g_len2"]
  Gd := [p!"spectrometer mode", p!"sector", p!"freeze", p!"azimuthal reference", p!"",
      p!"", p!"zone vec 0", p!"", p!"", p!"zone vec 1", p!"", p!"",
      p!"distance from sample to gamma when gam = 0",
      p!"0 for default configuration, 1 for the other",
      p!"set if tracking gamR and gamT with gam", p!"set if sig-tau take precdence over azi HKL",
      p!""]
  Q := [p!"H", p!"K", p!"L", p!"LAMBDA", p!"ALPHA", p!"BETA", p!"OMEGA", p!"TTH",
      p!"AZIMUTH", p!"SIGMA", p!"TAU", p!"F_ALPHA", p!"F_BETA", p!"F_OMEGA", p!"F_AZIMUTH",
      p!"F_PHI", p!"F_CHI_Z", p!"F_PHI_Z", p!"F_MU", p!"F_GAMMA", p!"CUT_AZI", p!"CUT_DEL",
      p!"CUT_TH", p!"CUT_CHI", p!"CUT_PHI", p!"CUT_MU", p!"CUT_GAM", p!"F_CHI"]
  Qd := [p!"1st Miller index", p!"2nd Miller index", p!"3rd Miller index",
      p!"wavelength, Angstrom", p!"", p!"", p!"", p!"", p!"", p!"", p!"", p!"Frozen values", p!"",
      p!"", p!"", p!"", p!"", p!"", p!"", p!"", p!"azimuthal cut-point flag", p!"", p!"", p!"",
      p!"", p!"", p!"", p!""]
  U := none
  Ud := none
  modes := [p!"Omega fixed (four circle, Mu = Gamma = 0)",
      p!"Phi fixed (four circle, Mu = Gamma = 0)", p!"Zone (four circle, Mu = Gamma = 0)",
      p!"Azimuth, Mu and Gamma fixed", p!"Alpha, Mu and Gamma fixed",
      p!"Beta, Mu and Gamma fixed", p!"Azimuth and Gamma fixed, Mu varies",
      p!"Alpha and Gamma fixed, Mu varies", p!"Beta and Gamma fixed, Mu varies",
      p!"Azimuth and Mu fixed, Gamma varies", p!"Alpha and Mu fixed, Gamma varies",
      p!"Beta and Mu fixed, Gamma varies",
      p!"Z-Axis with Azimuth fixed and Chi, Phi set to -Sigma, -Tau",
      p!"Z-Axis with Alpha fixed and Chi, Phi set to -Sigma, -Tau",
      p!"Z-Axis with Beta fixed and Chi, Phi set to -Sigma, -Tau", p!"Specular",
      p!"Chi, Phi and Mu fixed"]
  numgeo := 6
  variations := [⟨p!"default", [p!"del", p!"th", p!"chi", p!"phi", p!"mu", p!"gam"], []⟩]

/-- geometry 10 of diffractometer-geometries.dict: surf -/
def geo10 : Geometry where
  name := p!"surf"
  G := [p!"g_mode", p!"g_h0", p!"g_k0", p!"g_l0", p!"g_psi"]
  Gd := [p!"sign of phi rotation if allowed", p!"h units", p!"k units", p!"l units",
      p!"angle between h0 and k0"]
  Q := [p!"H", p!"K", p!"L", p!"LAMBDA", p!"ALPHA", p!"BETA"]
  Qd := [p!"1st Miller index", p!"2nd Miller index", p!"3rd Miller index",
      p!"wavelength, Angstrom", p!"", p!""]
  U := none
  Ud := none
  modes := []
  numgeo := 0
  variations := [⟨p!"default", [], []⟩]

/-- geometry 11 of diffractometer-geometries.dict: suv -/
def geo11 : Geometry where
  name := p!"suv"
  G := [p!"g_mode", p!"g_sect", p!"g_frz", p!"g_khi"]
  Gd := [p!"spectrometer mode", p!"sector", p!"freeze",
      p!"flag for calculations without khi1 and khi2 during alignment"]
  Q := [p!"H", p!"K", p!"L", p!"LAMBDA", p!"TWO_THETA", p!"CUT_DEL", p!"CUT_OME",
      p!"CUT_ALF", p!"CUT_BET", p!"CUT_KHI1", p!"CUT_KHI2", p!"F_ALPHA_S", p!"F_BETA_S",
      p!"F_ALPHA_R", p!"F_BETA_R", p!"KHI1_S", p!"KHI2_S", p!"KHI1_R", p!"KHI2_R", p!"ALPHA_S",
      p!"BETA_S", p!"ALPHA_R", p!"BETA_R"]
  Qd := [p!"1st Miller index", p!"2nd Miller index", p!"3rd Miller index",
      p!"wavelength, Angstrom", p!"", p!"", p!"", p!"", p!"", p!"", p!"", p!"", p!"", p!"", p!"",
      p!"", p!"", p!"", p!"", p!"", p!"", p!"", p!""]
  U := none
  Ud := none
  modes := [p!"Alpha_S fixed", p!"Beta_S fixed", p!"Alpha_S equals Beta_S",
      p!"Alpha_R fixed", p!"Beta_R fixed", p!"Alpha_R equals Beta_R"]
  numgeo := 6
  variations := [⟨p!"default", [p!"del", p!"ome", p!"alf", p!"bet", p!"khi1", p!"khi2"], []⟩]

/-- geometry 12 of diffractometer-geometries.dict: trip -/
def geo12 : Geometry where
  name := p!"trip"
  G := []
  Gd := []
  Q := [p!"H", p!"K", p!"L", p!"LAMBDA"]
  Qd := [p!"1st Miller index", p!"2nd Miller index", p!"3rd Miller index",
      p!"wavelength, Angstrom"]
  U := none
  Ud := none
  modes := []
  numgeo := 4
  variations := [⟨p!"default", [p!"tth", p!"th", p!"chi", p!"phi"], []⟩]

/-- geometry 13 of diffractometer-geometries.dict: twoc -/
def geo13 : Geometry where
  name := p!"twoc"
  G := []
  Gd := []
  Q := [p!"H", p!"K", p!"L", p!"LAMBDA"]
  Qd := [p!"1st Miller index", p!"2nd Miller index", p!"3rd Miller index",
      p!"wavelength, Angstrom"]
  U := some [p!"g_aa", p!"g_bb", p!"g_ga", p!"g_aa_s", p!"g_bb_s", p!"g_ga_s", p!"g_h0",
      p!"g_k0", p!"g_u00", p!"g_u01", p!"g_lambda"]
  Ud := some [p!"a lattice constant (real space)", p!"b lattice constant (real space)",
      p!"gamma lattice angle (real space)", p!"a lattice constant (reciprocal space)",
      p!"b lattice constant (reciprocal space)", p!"gamma lattice angle (reciprocal space)",
      p!"H of primary reflection", p!"K of primary reflection", p!"angles of primary reflection",
      p!"", p!"lambda when reflections were saved"]
  modes := []
  numgeo := 2
  variations := [⟨p!"default", [p!"tth", p!"th"], []⟩]

/-- geometry 14 of diffractometer-geometries.dict: twoc_old -/
def geo14 : Geometry where
  name := p!"twoc_old"
  G := [p!"g_h0", p!"g_k0", p!"g_psi"]
  Gd := [p!"H units", p!"K units", p!"Angle between H0 and K0"]
  Q := [p!"H", p!"K", p!"LAMBDA", p!"ALPHA", p!"BETA"]
  Qd := [p!"1st Miller index", p!"2nd Miller index", p!"wavelength, Angstrom", p!"", p!""]
  U := none
  Ud := none
  modes := []
  numgeo := 2
  variations := [⟨p!"default", [p!"tth", p!"th"], []⟩]

/-- geometry 15 of diffractometer-geometries.dict: w21h -/
def geo15 : Geometry where
  name := p!"w21h"
  G := [p!"g_mode", p!"g_sect", p!"g_frz", p!"g_haz", p!"g_kaz", p!"g_laz", p!"g_legA",
      p!"g_legB", p!"g_track"]
  Gd := [p!"spectrometer mode", p!"sector", p!"freeze", p!"azimuthal reference", p!"",
      p!"", p!"length from rear legs to center axis", p!"length from front leg to center axis",
      p!"set if tracking legs"]
  Q := [p!"H", p!"K", p!"L", p!"LAMBDA", p!"ALPHA", p!"BETA", p!"TWO_THETA", p!"AZIMUTH",
      p!"F_ALPHA", p!"F_BETA", p!"CUT_DEL", p!"CUT_OME", p!"CUT_ALF", p!"CUT_BET"]
  Qd := [p!"1st Miller index", p!"2nd Miller index", p!"3rd Miller index",
      p!"wavelength, Angstrom", p!"", p!"", p!"", p!"", p!"", p!"", p!"", p!"", p!"", p!""]
  U := none
  Ud := none
  modes := []
  numgeo := 4
  variations := [⟨p!"default", [p!"del", p!"ome", p!"alf", p!"bet", p!"legf", p!"legb1", p!"legb2"], []⟩]

/-- geometry 16 of diffractometer-geometries.dict: w21v -/
def geo16 : Geometry where
  name := p!"w21v"
  G := [p!"g_mode", p!"g_sect", p!"g_frz", p!"g_haz", p!"g_kaz", p!"g_laz", p!"g_legA",
      p!"g_legB", p!"g_track", p!"g_x2", p!"g_xgonioc", p!"g_liq"]
  Gd := [p!"spectrometer mode", p!"sector", p!"freeze", p!"azimuthal reference", p!"",
      p!"", p!"length from rear legs to center axis", p!"length from front leg to center axis",
      p!"set if tracking legs", p!"length from Slit1 to Slit2",
      p!"length from Slit1 to gonio center",
      p!"set if using alf to set incidence on a liq surface"]
  Q := [p!"H", p!"K", p!"L", p!"LAMBDA", p!"TWO_THETA", p!"BETA", p!"DELTA", p!"F_ALPHA",
      p!"F_BETA"]
  Qd := [p!"1st Miller index", p!"2nd Miller index", p!"3rd Miller index",
      p!"wavelength, Angstrom", p!"", p!"", p!"", p!"", p!""]
  U := none
  Ud := none
  modes := []
  numgeo := 4
  variations := [⟨p!"default", [p!"gam", p!"mu", p!"ome", p!"alf"], []⟩,
    ⟨p!"id10b", [p!"del", p!"gam", p!"om", p!"th"], []⟩,
    ⟨p!"d32", [p!"phi", p!"psi", p!"ome", p!"the", p!"hgl", p!"dht"], []⟩,
    ⟨p!"gmci", [p!"phi", p!"psi", p!"ome", p!"the"], []⟩]

/-- geometry 17 of diffractometer-geometries.dict: zaxis -/
def geo17 : Geometry where
  name := p!"zaxis"
  G := [p!"g_mode", p!"g_sect", p!"g_frz", p!"g_haz", p!"g_kaz", p!"g_laz", p!"g_len",
      p!"g_config", p!"g_track", p!"g_sigtau"]
  Gd := [p!"spectrometer mode", p!"sector", p!"freeze", p!"azimuthal reference", p!"",
      p!"", p!"distance from sample to gamma when gam = 0",
      p!"0 for default configuration, 1 for the other",
      p!"set if tracking gamR and gamT with gam", p!"set if sig-tau take precdence over azi HKL"]
  Q := [p!"H", p!"K", p!"L", p!"LAMBDA", p!"ALPHA", p!"BETA", p!"OMEGA", p!"TTH",
      p!"AZIMUTH", p!"SIGMA", p!"TAU", p!"F_ALPHA", p!"F_BETA", p!"F_OMEGA", p!"F_THETA",
      p!"F_MU", p!"F_GAMMA", p!"CUT_DEL", p!"CUT_TH", p!"CUT_MU", p!"CUT_GAM", p!"ALPHA_C"]
  Qd := [p!"1st Miller index", p!"2nd Miller index", p!"3rd Miller index",
      p!"wavelength, Angstrom", p!"", p!"", p!"", p!"", p!"", p!"", p!"", p!"Frozen values", p!"",
      p!"", p!"", p!"", p!"", p!"", p!"theta cut point", p!"", p!"",
      p!"alpha critical (for Munich configuration)"]
  U := none
  Ud := none
  modes := [p!"Alpha fixed", p!"Beta fixed", p!"Alpha=Beta", p!"Theta fixed"]
  numgeo := 4
  variations := [⟨p!"default", [p!"del", p!"th", p!"mu", p!"gam"], []⟩]

/-- geometry 18 of diffractometer-geometries.dict: zaxis_old -/
def geo18 : Geometry where
  name := p!"zaxis_old"
  G := [p!"z_mode", p!"z_aa", p!"z_bb", p!"z_cc", p!"z_l1"]
  Gd := [p!"spectrometer mode", p!"a lattice constant", p!"b lattice constant",
      p!"c lattice constant", p!"beta length"]
  Q := [p!"H", p!"K", p!"L", p!"LAMBDA"]
  Qd := [p!"1st Miller index", p!"2nd Miller index", p!"3rd Miller index",
      p!"wavelength, Angstrom"]
  U := none
  Ud := none
  modes := []
  numgeo := 4
  variations := [⟨p!"default", [p!"tth", p!"th", p!"alf", p!"gam"], []⟩,
    ⟨p!"beta", [p!"tth", p!"th", p!"alf", p!"gam", p!"beta"], []⟩]

/-- geometry 19 of diffractometer-geometries.dict: zeta -/
def geo19 : Geometry where
  name := p!"zeta"
  G := [p!"g_mode", p!"g_sect", p!"g_frz"]
  Gd := [p!"spectrometer mode", p!"sector", p!"freeze"]
  Q := [p!"H", p!"K", p!"L", p!"LAMBDA", p!"TTH", p!"ALPHA", p!"BETA", p!"F_ALPHA",
      p!"F_BETA", p!"CUT_NU", p!"CUT_ZETA", p!"CUT_DEL", p!"CUT_TH"]
  Qd := [p!"1st Miller index", p!"2nd Miller index", p!"3rd Miller index",
      p!"wavelength, Angstrom", p!"", p!"", p!"", p!"Frozen values", p!"", p!"",
      p!"theta cut point", p!"", p!""]
  U := none
  Ud := none
  modes := [p!"Alpha fixed", p!"Beta fixed", p!"Alpha=Beta"]
  numgeo := 4
  variations := [⟨p!"default", [p!"nu", p!"zeta", p!"del", p!"th"], []⟩]

/-- `DiffractometerGeometryCatalog.db` — diffractometers.py:437-438 -/
def geoDb : List Geometry :=
  [geo0, geo1, geo2, geo3, geo4, geo5, geo6, geo7, geo8, geo9, geo10, geo11, geo12,
      geo13, geo14, geo15, geo16, geo17, geo18, geo19]

end S2N
