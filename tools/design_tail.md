## Findings about the code

Each of these is proved about the model (theorem `*_refuted` or the like of the property in brackets) or follows from reading the modelled lines.

* **STL**: a text whose first line is `solid` without a name is read as binary; a blank line ended by CR LF after a facet is undefined behaviour; a word of 20
  characters or more overflows `token[20]`; a truncated binary file gives facets that are not in it [C71, C101, C102].
* **History**: a value recorded at the current date does not replace the previous one; dropping old samples loses the interpolation at the oldest date [C11, C14].
* **Co-simulation**: dates of gRPC requests are lost; a valid quaternion request can be refused; omitted commands keep the values of the previous request; results do not
  contain everything [C18, C20, C27, C37].
* **Observers**: forced states are observed for one body only; the wrench of controlled forces is observed in the wrong frame or point; values are duplicated; JSON lines
  are not well formed for some requests; wave grids are wrong in turned frames [C24, C29, C35, C54, C76].
* **Body**: `get_current_state_values(idx >= 1)` writes out of bounds; the potential energy of gravity uses the first body; an absolute tolerance on the symmetry of
  the inertia matrix accepts matrices that are not positive; additional values of a row are ignored [C103, C107].
* **Waves**: filtering loses the phases; constant phases throw when there are more directions than frequencies; the test of the depth is inverted; without stretching the
  attenuation is above one in crests; the last directional sector is lost; JONSWAP is negative for gamma > exp(1/0.287); cos2s is NaN for non-integer s
  [C46, C48, C49, C52, C53, C78, C117].
* **HDB**: RAO tables are in the order of the file while periods and incidences are sorted; the periods of the six lines of a matrix are not compared; the integration bound
  may be the lowest frequency; the frequency bounds and the calculation point of radiation damping are ignored (and its z is initialised with y); Clenshaw-Curtis and Filon
  throw at run time [C86, C89, C90].
* **Forces**: the pitch ratio is not restricted; a propeller gives NaN when ship and propeller are stopped, and pushes forward when it turns backwards; the rudder takes the norm of the six components
  of the propeller's wrench for its thrust and, going astern without thrust, sees a flow in the wrong direction; the heading controller uses the heave inertia and is not periodic;
  the station-keeping force is not turned to the body frame; quadratic damping with coupling can bring energy; constant forces in another frame have a wrong lever
  arm; linear hydrostatics divide an angle by a distance; the fast hydrostatic potential energy has the wrong sign and is measured in the body frame; the exact application point uses `J00` for
  `J11`, a direction of length g and a transposed rotation [C58, C92, C93, C94, C95, C96, C106, C115, C118].
* **Meshes**: a facet of more than three vertices with three consecutive ones on the surface reads out of bounds; a triangle entirely in the surface counts on both sides; `ymax` of the closing
  facets is never initialised with the data, `find_extreme_nodes` starts from column 0 of the mesh, `extreme_edge` from edge 0; the direction of a non-convex waterline can be wrong; the closing
  normal is (0,0,-1) in the body frame whatever the attitude; the immersed volume is zero when the immersed facets alone add up to zero; GZ curves compare the weight with immersed plus emerged
  volumes [C112, C113].
* **Maneuvering**: what cannot be parsed at the end of an expression is ignored, an unreadable expression is NaN (`-x(t)`), `-3^2` is `(-3)^2`, printing drops needed parentheses; Tmax is too short
  for some delays [C59, C60, C61].
* **Configuration**: four-character file names throw `std::out_of_range`; file names beginning with `ws` are refused; `ws://host:80abc` is accepted; command names are ambiguous when a model name contains a
  parenthesis; two bodies with the same name shorten the history [C62, C63, C66, C67].
* **GZ and GM**: the Newton-Raphson result is discarded, so trim is always zero; the draft is searched in [zmin, zmax] instead of [-zmax, -zmin]; GZ has an extra cos(theta) and the GM model disturbs
  the shared kinematics [C70, C100, C104].
